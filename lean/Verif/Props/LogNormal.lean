import Verif.Spec.LogNormal
import Mathlib.Probability.CDF

/-!
# Log-normal priors have the requested moments and quantiles
-/

namespace Verif.LogNormal.Props

open Verif.LogNormal Verif.LogNormal.Spec MeasureTheory ProbabilityTheory

instance (d : LN) : IsProbabilityMeasure (law d) :=
  Measure.isProbabilityMeasure_map Real.measurable_exp.aemeasurable

theorem exp_memLp (m : ℝ) (v : NNReal) : MemLp Real.exp 2 (gaussianReal m v) := by
  rw [memLp_two_iff_integrable_sq Real.measurable_exp.aestronglyMeasurable]
  have := integrable_exp_mul_gaussianReal (μ := m) (v := v) 2
  refine this.congr (Filter.Eventually.of_forall fun x => ?_)
  simp only
  rw [← Real.exp_nat_mul]
  norm_num

theorem id_memLp (d : LN) : MemLp id 2 (law d) := by
  unfold law
  rw [memLp_map_measure_iff aestronglyMeasurable_id Real.measurable_exp.aemeasurable]
  exact exp_memLp _ _

theorem law_mean (d : LN) : ∫ x, x ∂law d = Real.exp (d.mu + d.sigma ^ 2 / 2) := by
  unfold law
  rw [integral_map Real.measurable_exp.aemeasurable (by fun_prop)]
  have := congrFun (mgf_id_gaussianReal (μ := d.mu) (v := (d.sigma ^ 2).toNNReal)) 1
  simp only [mgf, id, one_mul, mul_one, one_pow, Real.coe_toNNReal _ (sq_nonneg d.sigma)] at this
  exact this

theorem law_sq (d : LN) : ∫ x, x ^ 2 ∂law d = Real.exp (2 * d.mu + 2 * d.sigma ^ 2) := by
  unfold law
  rw [integral_map Real.measurable_exp.aemeasurable (by fun_prop)]
  have := congrFun (mgf_id_gaussianReal (μ := d.mu) (v := (d.sigma ^ 2).toNNReal)) 2
  simp only [mgf, id, Real.coe_toNNReal _ (sq_nonneg d.sigma)] at this
  rw [show 2 * d.mu + 2 * d.sigma ^ 2 = d.mu * 2 + d.sigma ^ 2 * 2 ^ 2 / 2 by ring, ← this]
  refine integral_congr_ae (Filter.Eventually.of_forall fun x => ?_)
  simp only
  rw [← Real.exp_nat_mul]
  norm_num

theorem law_variance (d : LN) :
    Var[id; law d] = Real.exp (d.mu + d.sigma ^ 2 / 2) ^ 2 * (Real.exp (d.sigma ^ 2) - 1) := by
  rw [variance_eq_sub (id_memLp d)]
  have h1 := law_sq d
  have h2 := law_mean d
  simp only [Pi.pow_apply, id] at *
  rw [h1, h2, mul_sub, mul_one, ← Real.exp_nat_mul, ← Real.exp_add]
  congr 2
  push_cast
  ring

/-- C55: `lognormal_dist_from_mean_std` gives the log-normal distribution with this mean and standard
deviation. -/
theorem mean_std {mean std : ℝ} (hm : 0 < mean) :
    ∫ x, x ∂law (fromMeanStd mean std) = mean ∧
      Var[id; law (fromMeanStd mean std)] = std ^ 2 := by
  have h1 : (1 : ℝ) ≤ (std / mean) ^ 2 + 1 := by nlinarith [sq_nonneg (std / mean)]
  have h0 : (0 : ℝ) < (std / mean) ^ 2 + 1 := by linarith
  have hs : (fromMeanStd mean std).sigma ^ 2 = Real.log ((std / mean) ^ 2 + 1) := by
    simp only [fromMeanStd]
    exact Real.sq_sqrt (Real.log_nonneg h1)
  have he : Real.exp ((fromMeanStd mean std).mu + (fromMeanStd mean std).sigma ^ 2 / 2) = mean := by
    rw [hs]
    simp only [fromMeanStd]
    rw [show ∀ a b : ℝ, a - 1 / 2 * b + b / 2 = a by intros; ring, Real.exp_log hm]
  refine ⟨by rw [law_mean, he], ?_⟩
  rw [law_variance, he, hs, Real.exp_log h0]
  field_simp
  ring

/-! ### Ranges -/

theorem law_Iic {d : LN} (hd : 0 < d.sigma) {y : ℝ} (hy : 0 < y) :
    (law d).real (Set.Iic y) =
      (gaussianReal 0 1).real (Set.Iic ((Real.log y - d.mu) / d.sigma)) := by
  have hg : gaussianReal d.mu (d.sigma ^ 2).toNNReal =
      (gaussianReal 0 1).map fun x => d.sigma * x + d.mu := by
    have h1 := gaussianReal_map_const_mul (μ := 0) (v := 1) d.sigma
    have h2 := gaussianReal_map_add_const (μ := d.sigma * 0) (v := (d.sigma ^ 2).toNNReal) d.mu
    have hv : (NNReal.mk (d.sigma ^ 2) (sq_nonneg _) * 1 : NNReal) = (d.sigma ^ 2).toNNReal := by
      rw [mul_one]
      exact (Real.toNNReal_of_nonneg _).symm
    rw [hv] at h1
    rw [← h1, Measure.map_map (by fun_prop) (by fun_prop)] at h2
    rw [mul_zero, zero_add] at h2
    rw [← h2]
    rfl
  unfold law
  rw [hg, Measure.map_map (by fun_prop) (by fun_prop),
    map_measureReal_apply (by fun_prop) measurableSet_Iic]
  congr 1
  ext x
  simp only [Set.mem_preimage, Function.comp, Set.mem_Iic]
  rw [← Real.le_log_iff_exp_le hy, le_div_iff₀ hd]
  constructor <;> intro h <;> linarith

theorem law_singleton {d : LN} (hd : 0 < d.sigma) (y : ℝ) : law d {y} = 0 := by
  unfold law
  rw [Measure.map_apply Real.measurable_exp (measurableSet_singleton y)]
  have hv : (d.sigma ^ 2).toNNReal ≠ 0 := by
    have : 0 < d.sigma ^ 2 := by positivity
    simpa [Real.toNNReal_eq_zero] using hd.ne'
  have := nullSingletonClass_gaussianReal (μ := d.mu) hv
  refine Set.Subsingleton.measure_zero ?_ _
  intro a ha b hb
  exact Real.exp_injective (ha.trans hb.symm)

theorem quantile_lt {q : ℝ → ℝ} (hq : IsNormalQuantile q) {a b : ℝ} (ha : 0 < a) (hab : a < b)
    (hb : b < 1) : q a < q b := by
  by_contra h
  have := measureReal_mono (μ := gaussianReal 0 1) (Set.Iic_subset_Iic.2 (not_lt.1 h))
  rw [hq a ha (by linarith), hq b (by linarith) hb] at this
  linarith

/-- C55: `lognormal_dist_from_range` accepts exactly ranges `0 < low < high` with a mass strictly
between 0 and 1. -/
theorem range_accepted_iff (q : ℝ → ℝ) (args : List (ℝ × ℝ × ℝ)) :
    (∃ l, fromRange q args = .ok l) ↔
      ∀ a ∈ args, 0 < a.1 ∧ a.1 < a.2.1 ∧ 0 < a.2.2 ∧ a.2.2 < 1 := by
  unfold fromRange
  by_cases h1 : (∀ a ∈ args, 0 < a.1) ∧ ∀ a ∈ args, a.1 < a.2.1
  · rw [if_neg (not_not.2 h1)]
    by_cases h2 : (∀ a ∈ args, 0 < a.2.2) ∧ ∀ a ∈ args, a.2.2 < 1
    · rw [if_neg (not_not.2 h2)]
      exact ⟨fun _ a ha => ⟨h1.1 a ha, h1.2 a ha, h2.1 a ha, h2.2 a ha⟩, fun _ => ⟨_, rfl⟩⟩
    · rw [if_pos h2]
      refine ⟨fun ⟨_, h⟩ => (by cases h), fun h => absurd ⟨fun a ha => (h a ha).2.2.1,
        fun a ha => (h a ha).2.2.2⟩ h2⟩
  · rw [if_pos h1]
    refine ⟨fun ⟨_, h⟩ => (by cases h), fun h => absurd ⟨fun a ha => (h a ha).1,
      fun a ha => (h a ha).2.1⟩ h1⟩

/-- C55: and gives for every element the log-normal distribution with this mass in the range, the
rest half below and half above. -/
theorem range_mass {q : ℝ → ℝ} (hq : IsNormalQuantile q) {args : List (ℝ × ℝ × ℝ)} {l : List LN}
    (h : fromRange q args = .ok l) :
    List.Forall₂ (fun a d => 0 < d.sigma ∧ (law d).real (Set.Icc a.1 a.2.1) = a.2.2 ∧
      (law d).real (Set.Iio a.1) = (1 - a.2.2) / 2 ∧
      (law d).real (Set.Ioi a.2.1) = (1 - a.2.2) / 2) args l := by
  have hv := (range_accepted_iff q args).1 ⟨l, h⟩
  have hl : l = args.map fun a =>
      ⟨Real.log a.2.1 - q (0.5 + a.2.2 / 2) *
        (Real.log (a.2.1 / a.1) / (q (0.5 + a.2.2 / 2) - q (0.5 - a.2.2 / 2))),
        Real.log (a.2.1 / a.1) / (q (0.5 + a.2.2 / 2) - q (0.5 - a.2.2 / 2))⟩ := by
    unfold fromRange at h
    rw [if_neg (not_not.2 ⟨fun a ha => (hv a ha).1, fun a ha => (hv a ha).2.1⟩),
      if_neg (not_not.2 ⟨fun a ha => (hv a ha).2.2.1, fun a ha => (hv a ha).2.2.2⟩)] at h
    exact (Except.ok.inj h).symm
  subst hl
  rw [List.forall₂_map_right_iff, List.forall₂_same]
  intro a ha
  obtain ⟨h1, h2, h3, h4⟩ := hv a ha
  obtain ⟨low, high, mass⟩ := a
  simp only at h1 h2 h3 h4 ⊢
  set u := q (0.5 + mass / 2) with hu
  set v := q (0.5 - mass / 2) with hvv
  have huv : v < u := quantile_lt hq (by norm_num; linarith) (by linarith) (by norm_num; linarith)
  have hlog : 0 < Real.log (high / low) := Real.log_pos ((one_lt_div h1).2 h2)
  have hsig : 0 < Real.log (high / low) / (u - v) := div_pos hlog (by linarith)
  set s := Real.log (high / low) / (u - v) with hs
  set d : LN := ⟨Real.log high - u * s, s⟩ with hd
  have hdl : Real.log (high / low) = Real.log high - Real.log low :=
    Real.log_div (by linarith) h1.ne'
  have hsuv : s * (u - v) = Real.log high - Real.log low := by
    rw [hs, ← hdl, div_mul_cancel₀]
    linarith
  have hhigh : (law d).real (Set.Iic high) = 0.5 + mass / 2 := by
    rw [law_Iic hsig (by linarith)]
    have : (Real.log high - d.mu) / d.sigma = u := by
      simp only [hd]
      field_simp
      ring
    rw [this, hu, hq _ (by norm_num; linarith) (by norm_num; linarith)]
  have hlow : (law d).real (Set.Iic low) = 0.5 - mass / 2 := by
    rw [law_Iic hsig h1]
    have : (Real.log low - d.mu) / d.sigma = v := by
      simp only [hd]
      rw [div_eq_iff hsig.ne']
      linarith
    rw [this, hvv, hq _ (by norm_num; linarith) (by norm_num; linarith)]
  have hlow' : (law d).real (Set.Iio low) = 0.5 - mass / 2 := by
    rw [← hlow, ← Set.Iio_union_right,
      measureReal_union (by simp) (measurableSet_singleton _), measureReal_def (law d) {low},
      law_singleton hsig]
    simp
  refine ⟨hsig, ?_, ?_, ?_⟩
  · have : Set.Icc low high = Set.Iic high \ Set.Iio low := by
      ext x; simp
    have hsub : Set.Iio low ⊆ Set.Iic high := fun x hx => le_of_lt (lt_trans hx h2)
    rw [this, measureReal_sdiff hsub measurableSet_Iio, hhigh, hlow']
    ring
  · rw [hlow']; ring
  · rw [← Set.compl_Iic, probReal_compl_eq_one_sub measurableSet_Iic, hhigh]
    ring

/-! ### Total media contribution -/

theorem totalContribution_moments {kpi : ℝ} (hk : 0 < kpi) {spend : List ℝ}
    (hpos : 0 < spend.sum) :
    ∫ x, x ∂law (totalContribution kpi spend) = 0.4 * kpi / spend.sum ∧
      Var[id; law (totalContribution kpi spend)] =
        (0.2 * kpi / Real.sqrt ((spend.map (· ^ 2)).sum)) ^ 2 := by
  have hm : 0 < pMean * kpi / spend.sum := by unfold pMean; positivity
  set m := pMean * kpi / spend.sum with hmd
  set r := pSd * kpi / Real.sqrt ((spend.map (· ^ 2)).sum) with hr
  have h1 : (1 : ℝ) ≤ r ^ 2 / m ^ 2 + 1 := by
    have : 0 ≤ r ^ 2 / m ^ 2 := by positivity
    linarith
  have hs : (totalContribution kpi spend).sigma ^ 2 = Real.log (r ^ 2 / m ^ 2 + 1) := by
    simp only [totalContribution]
    exact Real.sq_sqrt (Real.log_nonneg h1)
  have hmu : (totalContribution kpi spend).mu =
      Real.log m - (totalContribution kpi spend).sigma ^ 2 / 2 := by
    have : (totalContribution kpi spend).mu =
        Real.log (m * Real.exp (-((totalContribution kpi spend).sigma ^ 2) / 2)) := rfl
    rw [this, Real.log_mul hm.ne' (Real.exp_pos _).ne', Real.log_exp]
    ring
  have he : Real.exp ((totalContribution kpi spend).mu
      + (totalContribution kpi spend).sigma ^ 2 / 2) = m := by
    rw [hmu, sub_add_cancel, Real.exp_log hm]
  refine ⟨by rw [law_mean, he, hmd]; rfl, ?_⟩
  rw [law_variance, he, hs, Real.exp_log (by linarith)]
  have : r ^ 2 = m ^ 2 * (r ^ 2 / m ^ 2 + 1 - 1) := by field_simp; ring
  rw [← this]
  rfl

/-- C55: with independent returns on investment that have the prior, the outcome of the total spend has
mean 40% and standard deviation 20% of the KPI. -/
theorem total_contribution {Ω : Type} [MeasurableSpace Ω] {P : Measure Ω} [IsProbabilityMeasure P]
    {kpi : ℝ} (hk : 0 < kpi) {spend : List ℝ} (hpos : 0 < spend.sum)
    (roi : Fin spend.length → Ω → ℝ)
    (hlaw : ∀ i, HasLaw (roi i) (law (totalContribution kpi spend)) P)
    (hind : Pairwise fun i j => IndepFun (roi i) (roi j) P) :
    ∫ ω, ∑ i, spend[i] * roi i ω ∂P = 0.4 * kpi ∧
      Var[fun ω => ∑ i, spend[i] * roi i ω; P] = (0.2 * kpi) ^ 2 := by
  obtain ⟨hmean, hvar⟩ := totalContribution_moments hk hpos
  have hL : ∀ i, MemLp (roi i) 2 P := by
    intro i
    have := id_memLp (totalContribution kpi spend)
    rw [← (hlaw i).map_eq, memLp_map_measure_iff aestronglyMeasurable_id (hlaw i).aemeasurable] at this
    exact this
  have hsum : ∑ i : Fin spend.length, spend[i] = spend.sum := by
    simp
  have hsq : ∑ i : Fin spend.length, spend[i] ^ 2 = (spend.map (· ^ 2)).sum := by
    rw [← List.sum_ofFn]
    congr 1
    refine List.ext_getElem (by simp) fun i h1 h2 => by simp
  have hm : ∀ i, ∫ ω, roi i ω ∂P = 0.4 * kpi / spend.sum := by
    intro i
    have h := (hlaw i).map_eq
    rw [← hmean, ← h, integral_map (hlaw i).aemeasurable (by fun_prop)]
  have hv : ∀ i, Var[roi i; P] = (0.2 * kpi / Real.sqrt ((spend.map (· ^ 2)).sum)) ^ 2 := by
    intro i
    rw [← hvar, ← (hlaw i).map_eq, variance_map aestronglyMeasurable_id.aemeasurable (hlaw i).aemeasurable]
    rfl
  constructor
  · rw [integral_finsetSum _ fun i _ => ((hL i).integrable (by norm_num)).const_mul _]
    simp only [integral_const_mul, hm]
    rw [← Finset.sum_mul, hsum]
    field_simp
  · have e : (fun ω => ∑ i, spend[i] * roi i ω) = ∑ i, fun ω => spend[i] * roi i ω := by
      ext ω; simp
    rw [e, IndepFun.variance_sum]
    · simp only [variance_const_mul, hv]
      rw [← Finset.sum_mul, hsq, div_pow, Real.sq_sqrt]
      · have h0 : (spend.map (· ^ 2)).sum ≠ 0 := by
          intro h
          have : ∀ i : Fin spend.length, spend[i] = 0 := by
            intro i
            have := (Finset.sum_eq_zero_iff_of_nonneg (fun i _ => sq_nonneg _)).1 (hsq.trans h) i
              (Finset.mem_univ i)
            exact pow_eq_zero_iff (two_ne_zero) |>.1 this
          rw [← hsum, Finset.sum_eq_zero fun i _ => this i] at hpos
          exact lt_irrefl _ hpos
        field_simp
      · rw [← hsq]
        exact Finset.sum_nonneg fun i _ => sq_nonneg _
    · exact fun i _ => (hL i).const_mul _
    · intro i _ j _ hij
      exact (hind hij).comp (measurable_const_mul _) (measurable_const_mul _)

/-! ### Examples -/

/-- The standard normal distribution has a quantile function, so the hypothesis of `range_mass` is met. -/
theorem exists_quantile : ∃ q, IsNormalQuantile q := by
  have hcont : Continuous fun x => cdf (gaussianReal 0 1) x := by
    rw [continuous_iff_continuousAt]
    intro x
    rw [(monotone_cdf _).continuousAt_iff_leftLim_eq_rightLim, StieltjesFunction.rightLim_eq]
    refine le_antisymm ((monotone_cdf _).leftLim_le le_rfl) ?_
    have h := (cdf (gaussianReal 0 1)).measure_singleton x
    rw [measure_cdf] at h
    have h0 := nullSingletonClass_gaussianReal (μ := 0) (v := 1) one_ne_zero
    rw [measure_singleton, eq_comm, ENNReal.ofReal_eq_zero] at h
    linarith
  have : ∀ p, ∃ x, 0 < p → p < 1 → cdf (gaussianReal 0 1) x = p := by
    intro p
    by_cases h : 0 < p ∧ p < 1
    · obtain ⟨x, hx⟩ := mem_range_of_exists_le_of_exists_ge hcont (c := p)
        ((tendsto_cdf_atBot _).eventually (eventually_le_nhds h.1)).exists
        ((tendsto_cdf_atTop _).eventually (eventually_ge_nhds h.2)).exists
      exact ⟨x, fun _ _ => hx⟩
    · exact ⟨0, fun h0 h1 => absurd ⟨h0, h1⟩ h⟩
  choose q hq using this
  exact ⟨q, fun p h0 h1 => by rw [← cdf_eq_real, hq p h0 h1]⟩

/-- The documented example: a mass of 95% between 1 and 10. -/
example : ∃ q l, IsNormalQuantile q ∧ fromRange q [(1, 10, 0.95)] = .ok l := by
  obtain ⟨q, hq⟩ := exists_quantile
  obtain ⟨l, hl⟩ := (range_accepted_iff q [(1, 10, 0.95)]).2 (by
    intro a ha
    rw [List.mem_singleton] at ha
    subst ha
    norm_num)
  exact ⟨q, l, hq, hl⟩

/-- Mean 2 and standard deviation 3. -/
example : ∫ x, x ∂law (fromMeanStd 2 3) = 2 ∧ Var[id; law (fromMeanStd 2 3)] = 3 ^ 2 :=
  mean_std (by norm_num)

/-- Independent returns with the prior exist: three channels, one without spend. -/
example : ∃ (Ω : Type) (_ : MeasurableSpace Ω) (P : Measure Ω) (_ : IsProbabilityMeasure P)
    (roi : Fin [30, 0, 70].length → Ω → ℝ),
    (∀ i, HasLaw (roi i) (law (totalContribution 1000 [30, 0, 70])) P) ∧
      (Pairwise fun i j => IndepFun (roi i) (roi j) P) ∧ (0 : ℝ) < [30, 0, 70].sum := by
  refine ⟨Fin [30, 0, 70].length → ℝ, inferInstance,
    Measure.pi fun _ => law (totalContribution 1000 [30, 0, 70]), inferInstance,
    fun i ω => ω i, fun i => ?_, fun i j hij => ?_, by norm_num⟩
  · exact ⟨(measurable_pi_apply i).aemeasurable, (measurePreserving_eval _ i).map_eq⟩
  · exact (iIndepFun_pi (X := fun _ x => x) fun _ => aemeasurable_id).indepFun hij

end Verif.LogNormal.Props
