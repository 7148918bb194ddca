import Verif.Lemmas.Mmm
import Verif.Props.Selection

/-!
# C35: expected and incremental outcomes
-/

namespace Verif.Mmm.Props

open Verif.Mmm Verif.Mmm.Spec Verif.Adstock Verif.Transformers Finset

/-- **C35 (definition of incremental outcome, media).** For every draw, dataset, channel, pair of
scaling factors and set of selected media times, the incremental outcome reported for a channel is
the expected outcome with that channel's execution multiplied by the second factor, minus the one
with it multiplied by the first factor, all other channels as they are. -/
theorem incremental_is_difference {ctx : Ctx} (hw : WF ctx) {p : Params} (hp : SlopesPos ctx p)
    (d : Data) (hd : d.nMediaTimes = ctx.nMediaTimes) {ch : Chan} (hv : ch.Valid ctx)
    (hm : ∀ c, ch ≠ .nonMedia c) (b : ℕ → ℝ) (s0 s1 : ℝ) (sel : ℕ → Bool)
    (br inverse uk : Bool) (g t : ℕ) :
    incrementalOutcome ctx p d b s0 s1 sel br inverse uk g t (ch.pos ctx)
      = expectedOutcome ctx p (treat d ch s1 sel br) inverse uk g t
        - expectedOutcome ctx p (treat d ch s0 sel br) inverse uk g t := by
  have hm' : MediaLike ch := by
    cases ch with
    | nonMedia c => exact absurd rfl (hm c)
    | _ => trivial
  have h1 := treat_nonMedia d ch s1 sel br
  have h0 := treat_nonMedia d ch s0 sel br
  rw [incrementalOutcome_media hw hp hv hm', expectedOutcome_sub _ _ _ _ _ _ _ _
    (h1.2.2.1.trans h0.2.2.1.symm), kpiMeans_sub_one hv hm']
  · have hu : unit ctx (treat d ch s1 sel br) inverse uk g t = unit ctx d inverse uk g t := by
      unfold unit revenue; rw [h1.2.2.1]
    have hn : nTimesOutput ctx d.nMediaTimes = ctx.nTimes := by
      unfold nTimesOutput; rw [hd]; simp
    rw [hu, hn]
  · intro ch' hne
    rw [value_treat_other hne, value_treat_other hne]
  · simp only [scaleData, h1.2.1, h0.2.1]
  · simp only [scaleData, h1.1, h0.1]

/-- **C35 (definition of incremental outcome, non-media).** For a non-media treatment it is the
expected outcome minus the one with that treatment at its baseline. -/
theorem incremental_nonmedia_is_difference {ctx : Ctx} (hw : WF ctx) (p : Params)
    (d : Data) {c : ℕ} (hc : c < ctx.nNonMedia) (b : ℕ → ℝ) (s0 s1 : ℝ) (sel : ℕ → Bool)
    (br inverse uk : Bool) (g t : ℕ) :
    incrementalOutcome ctx p d b s0 s1 sel br inverse uk g t ((Chan.nonMedia c).pos ctx)
      = expectedOutcome ctx p d inverse uk g t
        - expectedOutcome ctx p (atBaseline ctx d c b) inverse uk g t := by
  rw [incrementalOutcome_nonMedia hw, expectedOutcome_sub _ _ d (atBaseline ctx d c b) _ _ _ _ rfl,
    kpiMeans_sub_all (D := scaleData ctx d) (D' := scaleData ctx (atBaseline ctx d c b)) _ _ rfl]
  have e : ∀ m, transformedMedia ctx p (scaleData ctx d) ctx.nTimes g t m
      - transformedMedia ctx p (scaleData ctx (atBaseline ctx d c b)) ctx.nTimes g t m = 0 :=
    fun m => sub_self _
  simp only [e, zero_mul, Finset.sum_const_zero, zero_add]
  rw [Finset.sum_eq_single c]
  · congr 3
    exact (csForward_baseline hw b _ g t c (by simp [atBaseline])).symm
  · intro n _ hne
    have : (scaleData ctx (atBaseline ctx d c b)).nonMedia g t n
        = (scaleData ctx d).nonMedia g t n := by
      simp only [scaleData, scaleCs, csForward, atBaseline, if_neg hne]
    rw [this]; ring
  · intro h; exact absurd (mem_range.2 hc) h

/-- **C35.** For every draw, geo and time the expected outcome of the data is the expected outcome
with all treatments at their baselines, plus the incremental outcomes of all channels.  This holds
on the scale of the KPI, of revenue and of the model. -/
theorem outcome_decomposes {ctx : Ctx} (hw : WF ctx) {p : Params} (hp : SlopesPos ctx p)
    (d : Data) (hd : d.nMediaTimes = ctx.nMediaTimes) (hc : d.controls = ctx.data.controls)
    (hr : d.revenuePerKpi = ctx.data.revenuePerKpi) (b : ℕ → ℝ) (br inverse uk : Bool) (g t : ℕ) :
    expectedOutcome ctx p d inverse uk g t
      = expectedOutcome ctx p (baselineData ctx b) inverse uk g t
        + ∑ m ∈ range (nMediaLike ctx + ctx.nNonMedia),
            incrementalOutcome ctx p d b 0 1 (fun _ => true) br inverse uk g t m := by
  have key := expectedOutcome_sub ctx p d (baselineData ctx b) inverse uk g t hr
  rw [kpiMeans_sub_all _ _ (by simp only [scaleData, baselineData, hc])] at key
  rw [Finset.sum_range_add]
  have hn : nTimesOutput ctx d.nMediaTimes = ctx.nTimes := by
    unfold nTimesOutput; rw [hd]; simp
  have h1 : ∑ m ∈ range (nMediaLike ctx),
        incrementalOutcome ctx p d b 0 1 (fun _ => true) br inverse uk g t m
      = (∑ m ∈ range (nMediaLike ctx), (transformedMedia ctx p (scaleData ctx d) ctx.nTimes g t m
          - transformedMedia ctx p (scaleData ctx (baselineData ctx b)) ctx.nTimes g t m)
          * combinedBeta ctx p g m) * unit ctx d inverse uk g t := by
    rw [Finset.sum_mul]
    apply Finset.sum_congr rfl
    intro m hm
    obtain ⟨ch, hv, hl, rfl⟩ := exists_chan (mem_range.1 hm)
    have e1 : ∀ ch', value ctx p (scaleData ctx (scaleByMultiplier d (multiplier 1 fun _ => true) br))
        ctx.nTimes ch' g t = value ctx p (scaleData ctx d) ctx.nTimes ch' g t := by
      intro ch'
      have : scaleByMultiplier d (multiplier 1 fun _ => true) br = d := by
        have hone : ∀ t, multiplier 1 (fun _ => true) t = 1 := by intro t; simp [multiplier]
        unfold scaleByMultiplier
        simp only [hone, mul_one, ite_self]
      rw [this]
    rw [incrementalOutcome_media hw hp hv hl, transformedMedia_pos hv hl, transformedMedia_pos hv hl,
      combinedBeta_pos hv hl, value_baseline hp hv, hn, value_treat_self hl, value_treat_self hl,
      value_zero hp hv _ (fun _ _ => rfl), e1]
  have h2 : ∑ c ∈ range ctx.nNonMedia,
        incrementalOutcome ctx p d b 0 1 (fun _ => true) br inverse uk g t (nMediaLike ctx + c)
      = (∑ n ∈ range ctx.nNonMedia, ((scaleData ctx d).nonMedia g t n
          - (scaleData ctx (baselineData ctx b)).nonMedia g t n) * p.gammaN g n)
          * unit ctx d inverse uk g t := by
    rw [Finset.sum_mul]
    apply Finset.sum_congr rfl
    intro c _
    have e : nMediaLike ctx + c = (Chan.nonMedia c).pos ctx := rfl
    rw [e, incrementalOutcome_nonMedia hw]
    have := csForward_baseline hw b (baselineData ctx b).nonMedia g t c rfl
    simp only [scaleData]
    rw [this]
  rw [h1, h2, ← add_mul, ← key]
  ring

/-- **C35 (aggregated).** The decomposition holds for the values reported for any selection of geos
and times, aggregated over both. -/
theorem aggregated_outcome_decomposes {ctx : Ctx} (hw : WF ctx) {p : Params} (hp : SlopesPos ctx p)
    (d : Data) (hd : d.nMediaTimes = ctx.nMediaTimes) (hc : d.controls = ctx.data.controls)
    (hr : d.revenuePerKpi = ctx.data.revenuePerKpi) (b : ℕ → ℝ) (br inverse uk : Bool)
    (gi ti : Option (List ℕ)) :
    ∃ (base : ℝ) (inc : ℕ → ℝ),
      Selection.filterAggregate (expectedOutcome ctx p (baselineData ctx b) inverse uk)
        ctx.nGeos ctx.nTimes gi ti true true = [[base]] ∧
      (∀ m, Selection.filterAggregate (fun g t =>
          incrementalOutcome ctx p d b 0 1 (fun _ => true) br inverse uk g t m)
        ctx.nGeos ctx.nTimes gi ti true true = [[inc m]]) ∧
      Selection.filterAggregate (expectedOutcome ctx p d inverse uk)
        ctx.nGeos ctx.nTimes gi ti true true
        = [[base + ∑ m ∈ range (nMediaLike ctx + ctx.nNonMedia), inc m]] := by
  refine ⟨_, _, Selection.Props.aggregate_all _ _ _ _ _,
    fun m => Selection.Props.aggregate_all _ _ _ _ _, ?_⟩
  rw [Selection.Props.aggregate_all]
  have hsum : ∀ (l : List ℕ) (f h : ℕ → ℝ) (k : ℕ → ℕ → ℝ) (M : ℕ),
      (∀ i ∈ l, f i = h i + ∑ m ∈ range M, k m i) →
      (l.map f).sum = (l.map h).sum + ∑ m ∈ range M, (l.map (k m)).sum := by
    intro l f h k M hl
    induction l with
    | nil => simp
    | cons a l ih =>
      simp only [List.map_cons, List.sum_cons, Finset.sum_add_distrib]
      rw [hl a (by simp), ih fun i hi => hl i (by simp [hi])]
      ring
  congr 2
  refine hsum _ _ _ (fun m g => ((Selection.axis ctx.nTimes ti).map fun t =>
    incrementalOutcome ctx p d b 0 1 (fun _ => true) br inverse uk g t m).sum) _ fun g _ => ?_
  exact hsum _ _ _ (fun m t => incrementalOutcome ctx p d b 0 1 (fun _ => true) br inverse uk g t m)
    _ fun t _ => outcome_decomposes hw hp d hd hc hr b br inverse uk g t

/-! ### Concrete cases -/

/-- Two geos, two times, one channel of each kind. -/
noncomputable def demo (sat : Sat) : Ctx where
  nGeos := 2
  nTimes := 2
  nMediaTimes := 2
  maxLag := 0
  hillBeforeAdstock := false
  media := ⟨1, .inl .geometric, .inl sat, fun _ => 1⟩
  rf := ⟨1, .inl .geometric, .inl sat, fun _ => 1⟩
  organicMedia := ⟨1, .inl .geometric, .inl sat, fun _ => 1⟩
  organicRf := ⟨1, .inl .geometric, .inl sat, fun _ => 1⟩
  nNonMedia := 1
  nControls := 1
  population := fun g => g + 1
  nonMediaPopScaling := some fun _ => true
  nonMediaT := fun _ => ⟨some fun g => g + 1, 0, 1⟩
  controlsT := fun _ => ⟨none, 0, 1⟩
  kpiT := ⟨fun g => g + 1, 5, 2⟩
  kpiIsRevenue := false
  data := {
    nMediaTimes := 2
    media := fun g t _ => g + t + 1
    reach := fun g t _ => g + t + 1
    frequency := fun g t _ => g + t + 1
    organicMedia := fun g t _ => g + t + 1
    organicReach := fun g t _ => g + t + 1
    organicFrequency := fun g t _ => g + t + 1
    nonMedia := fun g t _ => g + t + 1
    controls := fun g t _ => g + t + 1
    revenuePerKpi := some fun _ _ => 3 }

/-- Parameters for `demo`, with a given slope. -/
noncomputable def demoParams (slope : ℝ) : Params where
  media := ⟨fun _ => 1 / 2, fun _ => 1, fun _ => slope, fun _ _ => 1⟩
  rf := ⟨fun _ => 1 / 2, fun _ => 1, fun _ => slope, fun _ _ => 1⟩
  organicMedia := ⟨fun _ => 1 / 2, fun _ => 1, fun _ => slope, fun _ _ => 1⟩
  organicRf := ⟨fun _ => 1 / 2, fun _ => 1, fun _ => slope, fun _ _ => 1⟩
  mu := fun _ => 0
  tau := fun _ => 0
  gammaC := fun _ _ => 1
  gammaN := fun _ _ => 1

theorem demo_wf (sat : Sat) : WF (demo sat) := by
  refine ⟨by simp [demo], fun g => ?_, fun c => ?_, rfl⟩
  · simp only [demo]; positivity
  · simp [demo]

theorem demo_slopes (sat : Sat) : SlopesPos (demo sat) (demoParams 1) := by
  simp [SlopesPos, demoParams]

theorem demo_adstock (sat : Sat) (k : MediaKind) (hk : k.decay = .inl .geometric) (α : ℕ → ℝ)
    (x : T3) (g t c : ℕ) (ht : t < 2) :
    adstockForward (demo sat) k α 2 2 x g t c = x g t c := by
  unfold adstockForward
  rw [hk, adstock_eq _ _ _ _ _ _ (by norm_num) (by simp [series])]
  obtain rfl | rfl : t = 0 ∨ t = 1 := by omega
  all_goals simp [entry, series, Adstock.Spec.adstockAt, Adstock.Spec.window, demo,
    Adstock.Spec.weight, Adstock.Spec.retained, Adstock.Spec.decayOf, Adstock.Spec.mediaAt,
    List.range_succ]

theorem demo_value (s slope : ℝ) :
    value (demo .hill) (demoParams slope)
      (scaleData (demo .hill) (treat (demo .hill).data (.media 0) s (fun _ => true) true)) 2
      (.media 0) 0 0 = s ^ slope / (s ^ slope + 1) := by
  show adstockHillMedia (demo .hill) (demo .hill).media _ 2 2 _ 0 0 0 = _
  unfold adstockHillMedia
  rw [if_neg (by simp [demo])]
  simp only [hillForward]
  rw [demo_adstock _ (demo .hill).media rfl _ _ _ _ _ (by norm_num), if_pos (by simp [demo, mask])]
  simp [demo, demoParams, scaleData, treat, scaleOne, scaleMedia, mediaForward, mediaScale, hill]

theorem demo_unit : unit (demo .hill) (demo .hill).data true false 0 0 = 6 := by
  simp [unit, demo, useKpi, revenue]; norm_num

/-- The hypotheses of the theorems above are met and the incremental outcome is not trivial: one
half on the scale of the model, times 2 and 3 for revenue. -/
example : WF (demo .hill) ∧ SlopesPos (demo .hill) (demoParams 1) ∧
    incrementalOutcome (demo .hill) (demoParams 1) (demo .hill).data (fun _ => 0) 0 1
      (fun _ => true) true true false 0 0 ((Chan.media 0).pos (demo .hill)) = 3 := by
  refine ⟨demo_wf _, demo_slopes _, ?_⟩
  have h := incrementalOutcome_media (demo_wf .hill) (demo_slopes .hill) (d := (demo .hill).data)
    (ch := .media 0) (by simp [Chan.Valid, demo]) trivial (fun _ => 0) 0 1 (fun _ => true) true true
    false 0 0
  have hn : nTimesOutput (demo .hill) (demo .hill).data.nMediaTimes = 2 := by
    simp [nTimesOutput, demo]
  rw [h, hn, demo_value, demo_value, demo_unit]
  simp [coef, demoParams]
  norm_num

/-- **C35 (positive slopes are needed).** At slope zero, which `PriorDistribution` excludes for
deterministic priors, the Hill function does not vanish at zero media, and the scenario with no media,
which is not computed, is not worth zero: a positive incremental outcome would be reported for a
channel with no effect on the expected outcome. -/
theorem incremental_wrong_at_slope_zero :
    incrementalOutcome (demo .hill) (demoParams 0) (demo .hill).data (fun _ => 0) 0 1
      (fun _ => true) true true false 0 0 ((Chan.media 0).pos (demo .hill)) = 3 ∧
    expectedOutcome (demo .hill) (demoParams 0)
        (treat (demo .hill).data (.media 0) 1 (fun _ => true) true) true false 0 0
      - expectedOutcome (demo .hill) (demoParams 0)
        (treat (demo .hill).data (.media 0) 0 (fun _ => true) true) true false 0 0 = 0 := by
  have hv : (Chan.media 0).Valid (demo .hill) := by simp [Chan.Valid, demo]
  constructor
  · unfold incrementalOutcome
    simp only
    rw [if_neg (by simp), incrementalImpl_eq (demo_wf _), incrementalKpi_media hv trivial,
      unit_counterfactual, demo_unit, value_counterfactual, ← value_treat_self (ch := .media 0) trivial,
      counterfactual_times, show nTimesOutput (demo .hill) (demo .hill).data.nMediaTimes = 2 by
        simp [nTimesOutput, demo], demo_value]
    simp [coef, demoParams]
    norm_num
  · have hr : (treat (demo .hill).data (.media 0) 1 (fun _ => true) true).revenuePerKpi
        = (treat (demo .hill).data (.media 0) 0 (fun _ => true) true).revenuePerKpi := rfl
    rw [expectedOutcome_sub _ _ _ _ _ _ _ _ hr, kpiMeans_sub_one hv trivial]
    · rw [show (demo .hill).nTimes = 2 from rfl, demo_value, demo_value]
      simp
    · intro ch' hne
      rw [value_treat_other hne, value_treat_other hne]
    · rfl
    · rfl

end Verif.Mmm.Props
