import Verif.Spec.Sampler
import Verif.Lemmas.Mmm
import Verif.Lemmas.Curves

namespace Verif.Sampler

open Verif.Mmm Verif.Mmm.Spec Verif.Sampler.Spec Verif.Transformers Finset

/-- The coefficients of `calculateBeta` reproduce the incremental outcome. -/
theorem geo_sum (s : Setup) (nm : Bool) (io eta : ℝ) (diff : Panel) (dev : ℕ → ℝ)
    (h0 : ∀ g < s.ctx.nGeos, (nm || s.normal) = true ∨ 0 ≤ outcomeOverBeta s.ctx diff g)
    (hne : ∑ g ∈ range s.ctx.nGeos, outcomeOverBeta s.ctx diff g ≠ 0)
    (hio : (nm || s.normal) = true ∨ 0 < io) :
    ∑ g ∈ range s.ctx.nGeos, geoCoefficient (nm || s.normal) (calculateBeta s nm io diff eta dev) eta (dev g)
      * outcomeOverBeta s.ctx diff g = io := by
  unfold calculateBeta geoCoefficient
  simp only
  cases h : (nm || s.normal) with
  | true =>
    simp only [if_true]
    have e : ∀ g, ((io - ∑ g ∈ range s.ctx.nGeos, outcomeOverBeta s.ctx diff g * dev g * eta)
          / ∑ g ∈ range s.ctx.nGeos, outcomeOverBeta s.ctx diff g + eta * dev g)
          * outcomeOverBeta s.ctx diff g
        = ((io - ∑ g ∈ range s.ctx.nGeos, outcomeOverBeta s.ctx diff g * dev g * eta)
          / ∑ g ∈ range s.ctx.nGeos, outcomeOverBeta s.ctx diff g) * outcomeOverBeta s.ctx diff g
          + outcomeOverBeta s.ctx diff g * dev g * eta := by intro g; ring
    simp only [e, Finset.sum_add_distrib, ← Finset.mul_sum]
    rw [div_mul_cancel₀ _ hne]
    ring
  | false =>
    simp only [h, Bool.false_eq_true, if_false, false_or] at *
    have hpos : 0 < ∑ g ∈ range s.ctx.nGeos, outcomeOverBeta s.ctx diff g * Real.exp (dev g * eta) := by
      have h1 : ∃ g ∈ range s.ctx.nGeos, outcomeOverBeta s.ctx diff g ≠ 0 := by
        by_contra hc
        push Not at hc
        exact hne (Finset.sum_eq_zero hc)
      obtain ⟨g, hg, hg'⟩ := h1
      apply Finset.sum_pos'
      · intro i hi
        exact mul_nonneg (h0 i (mem_range.1 hi)) (Real.exp_pos _).le
      · exact ⟨g, hg, mul_pos (lt_of_le_of_ne (h0 g (mem_range.1 hg)) (Ne.symm hg')) (Real.exp_pos _)⟩
    have e : ∀ g, Real.exp (Real.log io - Real.log (∑ g ∈ range s.ctx.nGeos,
          outcomeOverBeta s.ctx diff g * Real.exp (dev g * eta)) + eta * dev g)
          * outcomeOverBeta s.ctx diff g
        = io / (∑ g ∈ range s.ctx.nGeos, outcomeOverBeta s.ctx diff g * Real.exp (dev g * eta))
          * (outcomeOverBeta s.ctx diff g * Real.exp (dev g * eta)) := by
      intro g
      rw [Real.exp_add, Real.exp_sub, Real.exp_log hio, Real.exp_log hpos, mul_comm eta]
      ring
    simp only [e, ← Finset.mul_sum]
    exact div_mul_cancel₀ _ hpos.ne'

theorem treat_one (d : Data) (ch : Chan) (sel : ℕ → Bool) (br : Bool) : treat d ch 1 sel br = d := by
  have h : ∀ (c : ℕ) (x : T3), scaleOne c 1 sel x = x := by
    intro c x; funext g t c'; unfold scaleOne; split_ifs <;> simp
  cases ch <;> cases br <;> simp [treat, h]

/-- The change of the expected outcome by a treatment of one channel. -/
theorem change_treat {s : Setup} (hs : Ok s) (p : Params) {ch : Chan} (hv : ch.Valid s.ctx)
    (hm : MediaLike ch) (s1 s0 : ℝ) (sel1 sel0 : ℕ → Bool) (br : Bool) :
    change s.ctx p (treat s.ctx.data ch s1 sel1 br) (treat s.ctx.data ch s0 sel0 br)
      = ∑ g ∈ range s.ctx.nGeos, coef p ch g * outcomeOverBeta s.ctx (fun g t =>
          value s.ctx p (scaleData s.ctx (treat s.ctx.data ch s1 sel1 br)) s.ctx.nTimes ch g t
            - value s.ctx p (scaleData s.ctx (treat s.ctx.data ch s0 sel0 br)) s.ctx.nTimes ch g t) g := by
  unfold change outcomeOverBeta
  apply Finset.sum_congr rfl
  intro g _
  rw [Finset.mul_sum]
  apply Finset.sum_congr rfl
  intro t _
  have h1 := treat_nonMedia s.ctx.data ch s1 sel1 br
  have h0 := treat_nonMedia s.ctx.data ch s0 sel0 br
  rw [expectedOutcome_sub _ _ _ _ _ _ _ _ (h1.2.2.1.trans h0.2.2.1.symm), kpiMeans_sub_one hv hm]
  · unfold unit revenue useKpi
    rw [h1.2.2.1, hs.kpiPop]
    cases s.ctx.data.revenuePerKpi <;> simp <;> ring
  · intro ch' hne
    rw [value_treat_other hne, value_treat_other hne]
  · simp only [scaleData, h1.2.1, h0.2.1]
  · simp only [scaleData, h1.1, h0.1]

theorem value_unitCoef (ctx : Ctx) (p : Params) (D : Data) (n : ℕ) (ch : Chan) (g t : ℕ) :
    value ctx (unitCoef p) D n ch g t = value ctx p D n ch g t := by
  cases ch <;> rfl

theorem coef_unitCoef (p : Params) (ch : Chan) (g : ℕ) : coef (unitCoef p) ch g = 1 := by
  cases ch <;> rfl

theorem outcomeOverBeta_congr {ctx : Ctx} {x y : Panel} {g : ℕ} (h : ∀ t < ctx.nTimes, x g t = y g t) :
    outcomeOverBeta ctx x g = outcomeOverBeta ctx y g := by
  unfold outcomeOverBeta
  apply Finset.sum_congr rfl
  intro t ht
  rw [h t (mem_range.1 ht)]

theorem outcomeOverBeta_nonneg {s : Setup} (hs : Ok s) {x : Panel} {g : ℕ} (h : ∀ t, 0 ≤ x g t) :
    0 ≤ outcomeOverBeta s.ctx x g := by
  unfold outcomeOverBeta
  apply Finset.sum_nonneg
  intro t _
  have hr : 0 ≤ (match s.ctx.data.revenuePerKpi with | none => (1 : ℝ) | some r => r g t) := by
    cases hr : s.ctx.data.revenuePerKpi with
    | none => norm_num
    | some r => exact hs.revenue r hr g t
  exact mul_nonneg (mul_nonneg (mul_nonneg (h t) hr) (hs.wf.pop g).le) hs.kpiStd

/-- The common argument: when the coefficients come from `calculateBeta` with the difference that the
treatment makes, the treatment is worth the prescribed incremental outcome. -/
theorem honoured {s : Setup} (hs : Ok s) {p : Params} {ch : Chan} (hv : ch.Valid s.ctx)
    (hm : MediaLike ch) (s1 s0 : ℝ) (sel1 sel0 : ℕ → Bool) (br : Bool) (io eta : ℝ) (diff : Panel)
    (dev : ℕ → ℝ)
    (hc : ∀ g, coef p ch g = geoCoefficient s.normal (calculateBeta s false io diff eta dev) eta (dev g))
    (hd : ∀ g t, diff g t
      = value s.ctx p (scaleData s.ctx (treat s.ctx.data ch s1 sel1 br)) s.ctx.nTimes ch g t
        - value s.ctx p (scaleData s.ctx (treat s.ctx.data ch s0 sel0 br)) s.ctx.nTimes ch g t)
    (h0 : ∀ g t, 0 ≤ diff g t)
    (hmove : change s.ctx (unitCoef p) (treat s.ctx.data ch s1 sel1 br)
      (treat s.ctx.data ch s0 sel0 br) ≠ 0)
    (hio : s.normal = true ∨ 0 < io) :
    change s.ctx p (treat s.ctx.data ch s1 sel1 br) (treat s.ctx.data ch s0 sel0 br) = io := by
  rw [change_treat hs _ hv hm] at hmove ⊢
  simp only [value_unitCoef, coef_unitCoef, one_mul] at hmove
  have e : (fun g t => value s.ctx p (scaleData s.ctx (treat s.ctx.data ch s1 sel1 br)) s.ctx.nTimes ch g t
        - value s.ctx p (scaleData s.ctx (treat s.ctx.data ch s0 sel0 br)) s.ctx.nTimes ch g t)
      = diff := by funext g t; exact (hd g t).symm
  rw [e] at hmove ⊢
  simp only [hc]
  have := geo_sum s false io eta diff dev (fun g _ => .inr (outcomeOverBeta_nonneg hs (h0 g)))
    hmove (by simpa using hio)
  simpa using this

theorem aggregateSpend_eq (ctx : Ctx) (spend : T3) (cal : Option (ℕ → ℕ → Bool)) (c : ℕ) :
    aggregateSpend ctx spend cal c = spendIn ctx spend cal c := by
  unfold aggregateSpend spendIn
  cases cal with
  | none => simp [period]
  | some k =>
    apply Finset.sum_congr rfl
    intro g _
    rw [Finset.sum_filter]
    apply Finset.sum_congr rfl
    intro t _
    by_cases h : k (ctx.nMediaTimes - ctx.nTimes + t) c = true <;> simp [period, h]

theorem totalOutcome_eq (s : Setup) : totalOutcome s = observedOutcome s := by
  unfold totalOutcome observedOutcome
  cases s.ctx.data.revenuePerKpi <;> simp

theorem mask_hill {k : MediaKind} {c : ℕ} (h : HasHill k c) : mask k c = true := by
  unfold mask
  rcases h with h | ⟨l, h, h'⟩ <;> rw [h] <;> simp
  exact h'

theorem adstockHillMedia_sat {ctx : Ctx} {k : MediaKind} {p : MediaParams} {nIn nOut : ℕ} {x : T3}
    {g t c : ℕ} (h : mask k c = true) :
    adstockHillMedia ctx { k with sat := .inl .hill } p nIn nOut x g t c
      = adstockHillMedia ctx k p nIn nOut x g t c := by
  have h' : mask { k with sat := .inl .hill } c = true := by simp [mask]
  unfold adstockHillMedia
  split_ifs
  · apply adstockForward_congr
    intro u _
    simp only [h, h']
  · simp only [h, h']
    rfl

theorem adstockHillRf_sat {ctx : Ctx} {k : MediaKind} {p : MediaParams} {nIn nOut : ℕ} {r f : T3}
    {g t c : ℕ} (h : mask k c = true) :
    adstockHillRf ctx { k with sat := .inl .hill } p nIn nOut r f g t c
      = adstockHillRf ctx k p nIn nOut r f g t c := by
  have h' : mask { k with sat := .inl .hill } c = true := by simp [mask]
  unfold adstockHillRf
  show adstockForward ctx k _ _ _ _ _ _ _ = _
  apply adstockForward_congr
  intro u _
  simp only [h, h']

theorem scaleMedia_mul {ctx : Ctx} {k : MediaKind} {x : T3} {g t c : ℕ} (a : ℝ) :
    scaleMedia ctx k (fun g t c => x g t c * a) g t c = scaleMedia ctx k x g t c * a := by
  unfold scaleMedia mediaForward; ring

theorem scaleMedia_scaleOne {ctx : Ctx} {k : MediaKind} {x : T3} {g t c : ℕ} (a : ℝ) (sel : ℕ → Bool) :
    scaleMedia ctx k (scaleOne c a sel x) g t c
      = scaleMedia ctx k x g t c * if sel t = true then a else 1 := by
  unfold scaleMedia mediaForward
  simp only
  rw [scaleOne_self, multiplier_eq]
  ring

end Verif.Sampler
