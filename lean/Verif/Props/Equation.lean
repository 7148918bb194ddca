import Verif.Spec.Equation
import Verif.Props.Mmm
import Verif.Lemmas.Adstock

/-!
# The expected outcome is given by the published model equation
-/

namespace Verif.Equation.Props

open Verif.Mmm Verif.Equation.Spec Verif.Adstock Verif.Adstock.Spec Finset

variable {ctx : Ctx}

theorem mask_iff (k : MediaKind) (c : ℕ) : mask k c = true ↔ satOf k c = .hill := by
  unfold mask satOf
  cases k.sat with
  | inl s => simp
  | inr l =>
    simp only [decide_eq_true_eq, List.getD_eq_getElem?_getD]
    cases l[c]? <;> simp

theorem masked (k : MediaKind) (c : ℕ) (ec slope x : ℝ) :
    (if mask k c = true then hill x ec slope else x) = saturate (satOf k c) ec slope x := by
  by_cases h : satOf k c = .hill
  · rw [if_pos ((mask_iff k c).2 h), h]; rfl
  · rw [if_neg (fun e => h ((mask_iff k c).1 e))]
    cases h' : satOf k c with
    | hill => exact absurd h' h
    | none => rfl

theorem adstockForward_eq (k : MediaKind) (alpha : ℕ → ℝ) {nIn : ℕ} (h0 : 0 < ctx.nTimes)
    (h : ctx.nTimes ≤ nIn) (x : T3) {g t c : ℕ} (ht : t < ctx.nTimes) :
    adstockForward ctx k alpha nIn ctx.nTimes x g t c =
      lagged ctx k (alpha c) c (overTime nIn fun s => x g s c) t := by
  unfold adstockForward lagged
  rw [adstock_eq _ _ _ _ _ _ h0 (by simpa [series] using h)]
  simp only [entry]
  rw [List.getD_eq_getElem?_getD, List.getElem?_map, List.getElem?_range ht]
  rfl

theorem scaleMedia_eq (k : MediaKind) (x : T3) (g t c : ℕ) :
    scaleMedia ctx k x g t c = perCapita ctx k x g t c := rfl

theorem scaleCs_eq (cs : ℕ → Transformers.CS) (x : T3) (g t c : ℕ) :
    scaleCs cs x true g t c = standardised (cs c) g (x g t c) := by
  simp only [scaleCs, Transformers.csForward, standardised, Transformers.divideNoNan, if_true]
  by_cases h : (cs c).std = 0 <;> cases (cs c).factors <;> simp [h]

theorem media_eq (k : MediaKind) (p : MediaParams) {nIn : ℕ} (h0 : 0 < ctx.nTimes)
    (h : ctx.nTimes ≤ nIn) (x : T3) {g t c : ℕ} (ht : t < ctx.nTimes) :
    adstockHillMedia ctx k p nIn ctx.nTimes (scaleMedia ctx k x) g t c =
      mediaEffect ctx k p nIn x g t c := by
  unfold adstockHillMedia mediaEffect
  by_cases hb : ctx.hillBeforeAdstock = true
  · rw [if_pos hb, if_pos hb, adstockForward_eq _ _ h0 h _ ht]
    simp only [hillForward, masked, scaleMedia_eq]
  · rw [if_neg hb, if_neg hb]
    simp only [hillForward, masked]
    rw [adstockForward_eq _ _ h0 h _ ht]
    simp only [scaleMedia_eq]

theorem rf_eq (k : MediaKind) (p : MediaParams) {nIn : ℕ} (h0 : 0 < ctx.nTimes)
    (h : ctx.nTimes ≤ nIn) (x f : T3) {g t c : ℕ} (ht : t < ctx.nTimes) :
    adstockHillRf ctx k p nIn ctx.nTimes (scaleMedia ctx k x) f g t c =
      rfEffect ctx k p nIn x f g t c := by
  unfold adstockHillRf rfEffect
  rw [adstockForward_eq _ _ h0 h _ ht]
  simp only [hillForward, masked, scaleMedia_eq]

/-- C54: on the scale of the model the expected outcome is the published equation. -/
theorem expected_outcome_equation (p : Params) (d : Data) (uk : Bool)
    (h : ctx.nTimes ≤ d.nMediaTimes) {g t : ℕ} (ht : t < ctx.nTimes) :
    expectedOutcome ctx p d false uk g t = equation ctx p d g t := by
  have h0 : 0 < ctx.nTimes := by omega
  show kpiMeans ctx p (scaleData ctx d) g t = _
  unfold kpiMeans equation nMediaLike
  rw [Finset.sum_range_add, Finset.sum_range_add, Finset.sum_range_add]
  have e1 : ∀ c ∈ range ctx.media.n,
      transformedMedia ctx p (scaleData ctx d) ctx.nTimes g t c * combinedBeta ctx p g c =
        p.media.beta g c * mediaEffect ctx ctx.media p.media d.nMediaTimes d.media g t c := by
    intro c hc
    rw [mem_range] at hc
    rw [← media_eq _ _ h0 h _ ht, mul_comm]
    simp only [transformedMedia, combinedBeta, concat, concatB]
    rw [if_pos (by omega), if_pos (by omega), if_pos hc, if_pos (by omega), if_pos (by omega), if_pos hc]
    rfl
  have e2 : ∀ c ∈ range ctx.rf.n,
      transformedMedia ctx p (scaleData ctx d) ctx.nTimes g t (ctx.media.n + c)
          * combinedBeta ctx p g (ctx.media.n + c) =
        p.rf.beta g c * rfEffect ctx ctx.rf p.rf d.nMediaTimes d.reach d.frequency g t c := by
    intro c hc
    rw [mem_range] at hc
    rw [← rf_eq _ _ h0 h _ _ ht, mul_comm]
    simp only [transformedMedia, combinedBeta, concat, concatB]
    rw [if_pos (by omega), if_pos (by omega), if_neg (by omega), if_pos (by omega),
      if_pos (by omega), if_neg (by omega), Nat.add_sub_cancel_left]
    rfl
  have e3 : ∀ c ∈ range ctx.organicMedia.n,
      transformedMedia ctx p (scaleData ctx d) ctx.nTimes g t (ctx.media.n + ctx.rf.n + c)
          * combinedBeta ctx p g (ctx.media.n + ctx.rf.n + c) =
        p.organicMedia.beta g c *
          mediaEffect ctx ctx.organicMedia p.organicMedia d.nMediaTimes d.organicMedia g t c := by
    intro c hc
    rw [mem_range] at hc
    rw [← media_eq _ _ h0 h _ ht, mul_comm]
    simp only [transformedMedia, combinedBeta, concat, concatB]
    rw [if_pos (by omega), if_neg (by omega), if_pos (by omega), if_neg (by omega),
      Nat.add_sub_cancel_left]
    rfl
  have e4 : ∀ c ∈ range ctx.organicRf.n,
      transformedMedia ctx p (scaleData ctx d) ctx.nTimes g t
            (ctx.media.n + ctx.rf.n + ctx.organicMedia.n + c)
          * combinedBeta ctx p g (ctx.media.n + ctx.rf.n + ctx.organicMedia.n + c) =
        p.organicRf.beta g c * rfEffect ctx ctx.organicRf p.organicRf d.nMediaTimes d.organicReach
          d.organicFrequency g t c := by
    intro c hc
    rw [mem_range] at hc
    rw [← rf_eq _ _ h0 h _ _ ht, mul_comm]
    simp only [transformedMedia, combinedBeta, concat, concatB]
    rw [if_neg (by omega), if_neg (by omega), Nat.add_sub_cancel_left]
    rfl
  have e5 : ∀ c ∈ range ctx.nControls, (scaleData ctx d).controls g t c * p.gammaC g c =
      p.gammaC g c * standardised (ctx.controlsT c) g (d.controls g t c) := by
    intro c _
    rw [← scaleCs_eq ctx.controlsT d.controls g t c, mul_comm]
    rfl
  have e6 : ∀ c ∈ range ctx.nNonMedia, (scaleData ctx d).nonMedia g t c * p.gammaN g c =
      p.gammaN g c * standardised (ctx.nonMediaT c) g (d.nonMedia g t c) := by
    intro c _
    rw [← scaleCs_eq ctx.nonMediaT d.nonMedia g t c, mul_comm]
    rfl
  rw [sum_congr rfl e1, sum_congr rfl e2, sum_congr rfl e3, sum_congr rfl e4, sum_congr rfl e5,
    sum_congr rfl e6]
  ring

/-- In KPI units: scaled back by the standard deviation, mean and population. -/
theorem expected_kpi_equation (p : Params) (d : Data) (uk : Bool)
    (hk : ctx.kpiIsRevenue = false) (hu : uk = true ∨ ctx.data.revenuePerKpi = none)
    (h : ctx.nTimes ≤ d.nMediaTimes) {g t : ℕ} (ht : t < ctx.nTimes) :
    expectedOutcome ctx p d true uk g t =
      ctx.kpiT.pop g * (ctx.kpiT.mean + ctx.kpiT.std * equation ctx p d g t) := by
  have hu : useKpi ctx uk = true := by
    unfold useKpi
    rcases hu with rfl | hu
    · simp [hk]
    · simp [hk, hu]
  rw [← expected_outcome_equation p d uk h ht]
  simp only [expectedOutcome, hu, if_true, Transformers.kpiInverse, Bool.false_eq_true, if_false]
  ring

/-- In revenue: the KPI times revenue per KPI of the given data, or the historical one. -/
theorem expected_revenue_equation (p : Params) (d : Data) (uk : Bool)
    (hu : ctx.kpiIsRevenue = true ∨ uk = false) (hs : ctx.data.revenuePerKpi.isSome)
    {rev : Transformers.Panel}
    (hr : d.revenuePerKpi = some rev ∨ d.revenuePerKpi = none ∧ ctx.data.revenuePerKpi = some rev)
    (h : ctx.nTimes ≤ d.nMediaTimes) {g t : ℕ} (ht : t < ctx.nTimes) :
    expectedOutcome ctx p d true uk g t =
      rev g t * (ctx.kpiT.pop g * (ctx.kpiT.mean + ctx.kpiT.std * equation ctx p d g t)) := by
  have hu : useKpi ctx uk = false := by
    obtain ⟨r, hs⟩ := Option.isSome_iff_exists.1 hs
    unfold useKpi
    rcases hu with hu | rfl
    · cases uk <;> simp [hu, hs]
    · simp [hs]
  have hrev : revenue ctx d = rev := by
    unfold revenue
    rcases hr with hr | ⟨hr, hr'⟩
    · rw [hr]
    · rw [hr, hr']; rfl
  rw [← expected_outcome_equation p d uk h ht]
  simp only [expectedOutcome, hu, if_true, Transformers.kpiInverse, Bool.false_eq_true, if_false, hrev]
  ring

/-- The hypotheses are met by the example data of `Verif.Mmm.Props`, with a channel of every kind, two
periods, and revenue 3 per KPI. -/
example : expectedOutcome (Mmm.Props.demo .hill) (Mmm.Props.demoParams 1) (Mmm.Props.demo .hill).data
    true false 0 1 = 3 * (1 * (5 + 2 * equation (Mmm.Props.demo .hill) (Mmm.Props.demoParams 1)
      (Mmm.Props.demo .hill).data 0 1)) := by
  rw [expected_revenue_equation (rev := fun _ _ => 3) _ _ _ (Or.inr rfl) rfl (Or.inl rfl) le_rfl
    (by simp [Mmm.Props.demo])]
  simp [Mmm.Props.demo]

end Verif.Equation.Props
