import Verif.Spec.FreqReport
import Verif.Props.Summary
import Mathlib.Tactic

/-!
# C80: the report of the optimal frequency
-/

namespace Verif.FreqReport.Props

open Verif.Transformers Verif.Mmm Verif.Mmm.Spec Verif.Selection Verif.Selection.Spec Verif.Metrics
open Verif.Metrics.Spec Verif.Curves Verif.Results Verif.Summary Verif.Summary.Spec Verif.FreqReport.Spec
open Verif.Summary.Props

/-! ### One channel at a time -/

theorem inc_own {ctx : Ctx} (hw : WF ctx) {p : Params} (hp : SlopesPos ctx p) {d d' : Data} {c : ℕ}
    (hc : c < ctx.rf.n) (hn : d.nMediaTimes = d'.nMediaTimes)
    (hr : ∀ g t, d.reach g t c = d'.reach g t c) (hf : ∀ g t, d.frequency g t c = d'.frequency g t c)
    (hrev : d.revenuePerKpi = d'.revenuePerKpi) (b : ℕ → ℝ) (s0 s1 : ℝ) (br uk : Bool) (g t : ℕ) :
    incrementalOutcome ctx p d b s0 s1 (fun _ => true) br true uk g t ((Chan.rf c).pos ctx)
      = incrementalOutcome ctx p d' b s0 s1 (fun _ => true) br true uk g t ((Chan.rf c).pos ctx) := by
  rw [incrementalOutcome_media hw hp (ch := .rf c) hc trivial,
    incrementalOutcome_media hw hp (ch := .rf c) hc trivial]
  have hval : ∀ s, Mmm.value ctx p (scaleData ctx (treat d (.rf c) s (fun _ => true) br))
        (nTimesOutput ctx d.nMediaTimes) (.rf c) g t
      = Mmm.value ctx p (scaleData ctx (treat d' (.rf c) s (fun _ => true) br))
        (nTimesOutput ctx d'.nMediaTimes) (.rf c) g t := by
    intro s
    cases br
    · simp only [Mmm.value, treat, Bool.false_eq_true, if_false, scaleData, hn]
      apply adstockHillRf_congr
      · intro u
        exact scaleMedia_congr (hr g u)
      · intro u
        simp only [scaleOne, hf]
    · simp only [Mmm.value, treat, if_true, scaleData, hn]
      apply adstockHillRf_congr
      · intro u
        apply scaleMedia_congr
        simp only [scaleOne, hr]
      · intro u
        exact hf g u
  have hu : unit ctx d true uk g t = unit ctx d' true uk g t := by
    simp only [unit, revenue, hrev]
  rw [hval, hval, hu]

theorem lift_own {ctx : Ctx} (hw : WF ctx) {p : Params} (hp : SlopesPos ctx p) {d d' : Data}
    (hd : d.nMediaTimes = ctx.nMediaTimes) {c : ℕ} (hc : c < ctx.rf.n)
    (hn : d.nMediaTimes = d'.nMediaTimes)
    (hr : ∀ g t, d.reach g t c = d'.reach g t c) (hf : ∀ g t, d.frequency g t c = d'.frequency g t c)
    (hrev : d.revenuePerKpi = d'.revenuePerKpi) (s0 s1 : ℝ) (br uk : Bool) :
    lift ctx p d (.rf c) s0 s1 br uk = lift ctx p d' (.rf c) s0 s1 br uk := by
  funext g t
  have h1 := Mmm.Props.incremental_is_difference hw hp d hd (ch := .rf c) hc (by simp) (fun _ => 0) s0 s1
    (fun _ => true) br true uk g t
  have h2 := Mmm.Props.incremental_is_difference hw hp d' (hn ▸ hd) (ch := .rf c) hc (by simp) (fun _ => 0)
    s0 s1 (fun _ => true) br true uk g t
  unfold lift
  rw [← h1, ← h2]
  exact inc_own hw hp hc hn hr hf hrev _ _ _ _ _ g t

/-- The data at the frequencies of the request, with dummy media, is for channel `c` the data with that
channel shown at its frequency. -/
theorem lift_shown {ctx : Ctx} (hw : WF ctx) {p : Params} (hp : SlopesPos ctx p) {d : Data}
    (hd : d.nMediaTimes = ctx.nMediaTimes) {c : ℕ} (hc : c < ctx.rf.n) (f : ℕ → ℝ) (s0 s1 : ℝ)
    (br uk : Bool) :
    lift ctx p (dummyMedia (atFrequency d f)) (.rf c) s0 s1 br uk
      = lift ctx p (shownAt d c (f c)) (.rf c) s0 s1 br uk := by
  refine lift_own (d := dummyMedia (atFrequency d f)) (d' := shownAt d c (f c)) hw hp hd hc rfl ?_ ?_ rfl
    s0 s1 br uk
  · intro g t
    simp [dummyMedia, atFrequency, shownAt]
  · intro g t
    simp [dummyMedia, atFrequency, shownAt]

theorem cellSum_all {s : Sel} {ctx : Ctx} {a : Args} (hs : s.Resolves ctx a.gi a.ti)
    (h1 : a.aggregateGeos = true) (h2 : a.aggregateTimes = true) (f : ℕ → ℕ → ℝ) :
    cellSum s a 0 0 f = s.sum f := by
  have hij : InTable s a 0 0 := by
    unfold InTable parts
    simp [h1, h2]
  rw [← cell_over hs hij]
  unfold cell
  rw [h1, h2, Metrics.Props.sum_axis hs]
  rfl

theorem freqRoi_eq {ctx : Ctx} (hw : WF ctx) {p : Params} (hp : SlopesPos ctx p) {d : Data}
    (hd : d.nMediaTimes = ctx.nMediaTimes) (rfSpend : T3) {a : FreqArgs} {s : Sel}
    (hs : s.Resolves ctx a.gi a.ti) (f : ℝ) {c : ℕ} (hc : c < ctx.rf.n) :
    freqRoi ctx d rfSpend a f c p = outcomeAt ctx d s c f a.useKpi p / costOf s rfSpend c := by
  unfold freqRoi outcomeAt costOf total
  rw [Metrics.Props.sum_axis hs, Metrics.Props.sum_axis hs]
  have e : (fun g t => incrementalOutcome ctx p (dummyMedia (atFrequency d fun _ => f)) (fun _ => 0) 0 1
      (fun _ => true) true true (Mmm.useKpi ctx a.useKpi) g t (ctx.media.n + c))
      = lift ctx p (shownAt d c f) (.rf c) 0 1 true a.useKpi := by
    rw [← Metrics.Props.lift_useKpi hw, ← lift_shown hw hp hd hc (fun _ => f)]
    funext g t
    exact Mmm.Props.incremental_is_difference hw hp (dummyMedia (atFrequency d fun _ => f)) hd
      (ch := .rf c) hc (by simp) (fun _ => 0) 0 1 (fun _ => true) true true _ g t
  rw [e]
  rfl

theorem outcome_shown {ctx : Ctx} (hw : WF ctx) {p : Params} (hp : SlopesPos ctx p) {d : Data}
    (hd : d.nMediaTimes = ctx.nMediaTimes) {c : ℕ} (hc : c < ctx.rf.n) (o : ℕ → ℝ) (s : Sel) (uk : Bool) :
    s.sum (effect ctx p (dummyMedia (atFrequency d o)) (fun _ => 0) uk (.rf c))
      = outcomeAt ctx d s c (o c) uk p := by
  unfold outcomeAt
  simp only [effect]
  rw [lift_shown hw hp hd hc o 0 1 true uk]

theorem marginal_shown {ctx : Ctx} (hw : WF ctx) {p : Params} (hp : SlopesPos ctx p) {d : Data}
    (hd : d.nMediaTimes = ctx.nMediaTimes) {c : ℕ} (hc : c < ctx.rf.n) (o : ℕ → ℝ) (s : Sel) (δ : ℝ)
    (br uk : Bool) :
    s.sum (lift ctx p (dummyMedia (atFrequency d o)) (.rf c) 1 (1 + δ) br uk)
      = marginalAt ctx d s c (o c) δ br uk p := by
  unfold marginalAt
  rw [lift_shown hw hp hd hc o 1 (1 + δ) br uk]

/-! ### The report -/

theorem getD_map_map {n c : ℕ} (F : ℕ → Option ℕ) (G : Option ℕ → ℝ) (hc : c < n) :
    (((List.range n).map F).map G).getD c 0 = G (F c) := by
  simp [List.getD_eq_getElem?_getD, hc]

/-- The parts of an accepted report. -/
theorem report_eq {ctx : Ctx} {np : Np} {smp : Samples} {d : Data} {rfSpend : T3} {hm : ℝ} {a : FreqArgs}
    {R : FreqReport} (h : optimalFreqReport ctx np smp d rfSpend hm a = .ok R) :
    ∃ draws, smp.group (if a.usePosterior then .posterior else .prior) = some draws ∧ 0 < ctx.rf.n ∧
      R.grid = freqGrid hm a ∧ R.level = a.level ∧
      (∀ k c st, R.roi k c st
        = stat np a.level st (draws.map (freqRoi ctx d rfSpend a (R.grid.getD k 0) c))) ∧
      R.optimal.length = ctx.rf.n ∧
      (∀ c < ctx.rf.n, ∃ k, nanargmax ((List.range R.grid.length).map fun k =>
        some (R.roi k c .mean)) = some k ∧ R.optimal.getD c 0 = R.grid.getD k 0) ∧
      ∀ br, ∃ T, summaryMetrics ctx np smp (dummyMedia (atFrequency d fun c => R.optimal.getD c 0))
          (dummySpend ctx rfSpend)
          { gi := a.gi, ti := a.ti, useKpi := Mmm.useKpi ctx a.useKpi, byReach := br } = .ok T ∧
        ∀ v c st, v.source.2 = br → R.optimized v c st = match T v.source.1 with
          | some x => x (if a.usePosterior then .posterior else .prior) st 0 0 (ctx.media.n + c)
          | none => none := by
  unfold optimalFreqReport at h
  by_cases h0 : ctx.rf.n = 0
  · simp only [h0, if_true, reduceCtorEq] at h
  simp only [h0, if_false] at h
  cases hg : smp.group (if a.usePosterior then .posterior else .prior) with
  | none => simp only [hg, reduceCtorEq] at h
  | some draws =>
    simp only [hg] at h
    by_cases h1 : ((List.range ctx.rf.n).map fun c =>
        nanargmax ((List.range (freqGrid hm a).length).map fun k =>
          some (stat np a.level .mean (draws.map (freqRoi ctx d rfSpend a ((freqGrid hm a).getD k 0) c))))).any
        (·.isNone) = true
    · rw [if_pos h1] at h
      cases h
    · rw [if_neg h1] at h
      split at h
      case h_2 => cases h
      case h_3 => cases h
      case h_1 tR tF e1 e2 =>
        simp only [Except.ok.injEq] at h
        subst h
        refine ⟨draws, rfl, Nat.pos_of_ne_zero h0, rfl, rfl, fun _ _ _ => rfl, by simp, ?_, ?_⟩
        · intro c hc
          simp only [List.any_map, List.any_eq_true, List.mem_range, Function.comp, not_exists, not_and,
            Option.isNone_iff_eq_none] at h1
          obtain ⟨k, hk⟩ := Option.ne_none_iff_exists'.1 (h1 c hc)
          refine ⟨k, hk, ?_⟩
          exact (getD_map_map _ _ hc).trans
            (congrArg (fun i : Option ℕ => (freqGrid hm a).getD (i.getD 0) 0) hk)
        · intro br
          cases br
          · refine ⟨tF, e2, fun v c st hv => ?_⟩
            simp only [hv, Bool.false_eq_true, if_false]
            rfl
          · refine ⟨tR, e1, fun v c st hv => ?_⟩
            simp only [hv, if_true]
            rfl

/-- **C80 (accepted requests).** A report is given exactly if the model has a reach and frequency channel,
the grid is not empty, and both the prior and the posterior have been sampled. -/
theorem freq_accepted_iff (ctx : Ctx) (np : Np) (smp : Samples) (d : Data) (rfSpend : T3) (hm : ℝ)
    (a : FreqArgs) :
    (∃ R, optimalFreqReport ctx np smp d rfSpend hm a = .ok R) ↔
      0 < ctx.rf.n ∧ freqGrid hm a ≠ [] ∧ smp.prior.isSome ∧ smp.posterior.isSome := by
  constructor
  · rintro ⟨R, h⟩
    obtain ⟨draws, hg, h0, hgrid, -, -, -, hopt, hT⟩ := report_eq h
    obtain ⟨T, hT, -⟩ := hT true
    have := (summary_accepted_iff _ _ _ _ _ _).1 ⟨T, hT⟩
    refine ⟨h0, ?_, this.1, this.2.1⟩
    intro he
    obtain ⟨k, hk, -⟩ := hopt 0 h0
    rw [hgrid, he] at hk
    simp [nanargmax] at hk
  · rintro ⟨h0, hne, hp, hq⟩
    unfold optimalFreqReport
    simp only [show ctx.rf.n ≠ 0 by omega, if_false]
    obtain ⟨draws, hg⟩ : ∃ draws, smp.group (if a.usePosterior then .posterior else .prior) = some draws := by
      cases a.usePosterior
      · exact Option.isSome_iff_exists.1 hp
      · exact Option.isSome_iff_exists.1 hq
    simp only [hg]
    rw [if_neg]
    · have hok : ∀ D br, ∃ T, summaryMetrics ctx np smp D (dummySpend ctx rfSpend)
          { gi := a.gi, ti := a.ti, useKpi := Mmm.useKpi ctx a.useKpi, byReach := br } = .ok T := fun D br =>
        (summary_accepted_iff _ _ _ _ _ _).2 ⟨hp, hq, by norm_num, by simp⟩
      obtain ⟨T1, h1⟩ := hok (dummyMedia (atFrequency d fun c => (List.map (fun i =>
        (freqGrid hm a).getD (i.getD 0) 0) (List.map (fun c =>
          nanargmax ((List.range (freqGrid hm a).length).map fun k =>
            some (stat np a.level .mean (draws.map (freqRoi ctx d rfSpend a
              ((freqGrid hm a).getD k 0) c))))) (List.range ctx.rf.n))).getD c 0)) true
      obtain ⟨T2, h2⟩ := hok (dummyMedia (atFrequency d fun c => (List.map (fun i =>
        (freqGrid hm a).getD (i.getD 0) 0) (List.map (fun c =>
          nanargmax ((List.range (freqGrid hm a).length).map fun k =>
            some (stat np a.level .mean (draws.map (freqRoi ctx d rfSpend a
              ((freqGrid hm a).getD k 0) c))))) (List.range ctx.rf.n))).getD c 0)) false
      rw [h1, h2]
      exact ⟨_, rfl⟩
    · simp only [List.any_map, List.any_eq_true, List.mem_range, Function.comp, not_exists, not_and,
        Option.isNone_iff_eq_none]
      intro c _ hn
      have := (Curves.Props.nanargmax_spec _).1.1 hn
      have hl : 0 < (freqGrid hm a).length := List.length_pos_iff.2 hne
      have := this _ (List.mem_map_of_mem (List.mem_range.2 hl))
      cases this

/-- **C80 (the grid of ROI).** For every frequency of the grid and every channel, the report holds the
statistics over the draws of the requested distribution of the ROI of the channel at that frequency, with
the impressions it had, at the requested confidence level. -/
theorem freq_grid_values {ctx : Ctx} (hw : WF ctx) {np : Np} {smp : Samples} {d : Data}
    (hd : d.nMediaTimes = ctx.nMediaTimes) {rfSpend : T3} {hm : ℝ} {a : FreqArgs} {R : FreqReport}
    (h : optimalFreqReport ctx np smp d rfSpend hm a = .ok R) {s : Sel} (hs : s.Resolves ctx a.gi a.ti)
    {draws : List Params} (hg : smp.group (if a.usePosterior then .posterior else .prior) = some draws)
    (hp : ∀ p ∈ draws, SlopesPos ctx p) {c : ℕ} (hc : c < ctx.rf.n) (k : ℕ) (st : Stat) :
    R.roi k c st = summaryOf np a.level (draws.map fun p =>
      outcomeAt ctx d s c (R.grid.getD k 0) a.useKpi p / costOf s rfSpend c) st := by
  obtain ⟨draws', hg', -, -, -, hroi, -⟩ := report_eq h
  obtain rfl : draws' = draws := by rw [hg] at hg'; exact (Option.some.inj hg').symm
  rw [hroi, stat_eq]
  congr 1
  exact List.map_congr_left fun p hpp => freqRoi_eq hw (hp p hpp) hd rfSpend hs _ hc

/-- **C80 (the optimum).** For every channel the optimal frequency is a frequency of the grid at which the
reported mean ROI is the largest of its column; it is the first such frequency. -/
theorem freq_optimum {ctx : Ctx} {np : Np} {smp : Samples} {d : Data} {rfSpend : T3} {hm : ℝ} {a : FreqArgs}
    {R : FreqReport} (h : optimalFreqReport ctx np smp d rfSpend hm a = .ok R) :
    R.optimal.length = ctx.rf.n ∧ ∀ c < ctx.rf.n, ∃ k < R.grid.length,
      R.optimal.getD c 0 = R.grid.getD k 0 ∧
      (∀ k' < R.grid.length, R.roi k' c .mean ≤ R.roi k c .mean) ∧
      ∀ k' < k, R.roi k' c .mean < R.roi k c .mean := by
  obtain ⟨draws, -, -, -, -, -, hlen, hopt, -⟩ := report_eq h
  refine ⟨hlen, fun c hc => ?_⟩
  obtain ⟨k, hk, he⟩ := hopt c hc
  obtain ⟨v, h1, h2, h3⟩ := (Curves.Props.nanargmax_spec _).2 k hk
  have hkl : k < R.grid.length := by
    by_contra hlt
    rw [List.getElem?_eq_none (by simpa using hlt)] at h1
    cases h1
  have hget : ∀ k' < R.grid.length, ((List.range R.grid.length).map fun k =>
      some (R.roi k c .mean))[k']? = some (some (R.roi k' c .mean)) := by
    intro k' hk'
    simp [hk']
  have hv : v = R.roi k c .mean := by
    rw [hget k hkl] at h1
    simpa using h1.symm
  subst hv
  exact ⟨k, hkl, he, fun k' hk' => h2 k' _ (hget k' hk'),
    fun k' hk' => h3 k' _ hk' (hget k' (by omega))⟩

theorem rf_mem {ctx : Ctx} {a : Args} {c : ℕ} (hc : c < ctx.rf.n) : Chan.rf c ∈ channels ctx a := by
  unfold channels
  simp [hc]

/-- **C80 (the optimised quantities).** For every channel the report holds, at the optimal frequency of the
channel and with the impressions it had, the statistics over the draws of the incremental outcome, the ROI,
the outcome per impression, the marginal ROI of one percent more reach and of one percent more frequency,
and the spend per unit of incremental KPI.  Their level is 0.9. -/
theorem freq_optimized {ctx : Ctx} (hw : WF ctx) {np : Np} {smp : Samples} {d : Data}
    (hd : d.nMediaTimes = ctx.nMediaTimes) {rfSpend : T3} {hm : ℝ} {a : FreqArgs} {R : FreqReport}
    (h : optimalFreqReport ctx np smp d rfSpend hm a = .ok R) {s : Sel} (hs : s.Resolves ctx a.gi a.ti)
    {draws : List Params} (hg : smp.group (if a.usePosterior then .posterior else .prior) = some draws)
    (hp : ∀ p ∈ draws, SlopesPos ctx p) {c : ℕ} (hc : c < ctx.rf.n) (st : Stat) :
    let f := R.optimal.getD c 0
    let cost := costOf s rfSpend c
    let S := fun x : Params → ℝ => some (summaryOf np (9 / 10) (draws.map x) st)
    R.optimized .incrementalOutcome c st = S (outcomeAt ctx d s c f a.useKpi) ∧
    (cost ≠ 0 → R.optimized .roi c st = S fun p => outcomeAt ctx d s c f a.useKpi p / cost) ∧
    (f ≠ 0 → impressionsOf ctx d s c ≠ 0 → R.optimized .effectiveness c st
      = S fun p => outcomeAt ctx d s c f a.useKpi p / impressionsOf ctx d s c) ∧
    (cost ≠ 0 → R.optimized .mroiByReach c st
      = S fun p => marginalAt ctx d s c f (1 / 100) true a.useKpi p / (1 / 100 * cost)) ∧
    (cost ≠ 0 → R.optimized .mroiByFrequency c st
      = S fun p => marginalAt ctx d s c f (1 / 100) false a.useKpi p / (1 / 100 * cost)) ∧
    ((∀ p ∈ draws, outcomeAt ctx d s c f true p ≠ 0) → R.optimized .cpik c st
      = S fun p => cost / outcomeAt ctx d s c f true p) := by
  intro f cost S
  obtain ⟨draws', hg', -, -, -, -, -, -, hT⟩ := report_eq h
  obtain rfl : draws' = draws := by rw [hg] at hg'; exact (Option.some.inj hg').symm
  set D := dummyMedia (atFrequency d fun c => R.optimal.getD c 0) with hD
  have hDn : D.nMediaTimes = ctx.nMediaTimes := hd
  have hij : ∀ br : Bool, InTable s
      { gi := a.gi, ti := a.ti, useKpi := Mmm.useKpi ctx a.useKpi, byReach := br } 0 0 := by
    intro br
    unfold InTable parts
    simp
  have hcell : ∀ (br : Bool) x, cellSum s
      { gi := a.gi, ti := a.ti, useKpi := Mmm.useKpi ctx a.useKpi, byReach := br } 0 0 x = s.sum x :=
    fun br x => cellSum_all (a :=
      { gi := a.gi, ti := a.ti, useKpi := Mmm.useKpi ctx a.useKpi, byReach := br }) hs rfl rfl x
  have hout : ∀ uk, ∀ p ∈ draws', s.sum (effect ctx p D (fun _ => 0) uk (.rf c))
      = outcomeAt ctx d s c f uk p := by
    intro uk p hpp
    exact outcome_shown hw (hp p hpp) hd hc (fun c => R.optimal.getD c 0) s uk
  have houtU : ∀ p ∈ draws', s.sum (effect ctx p D (fun _ => 0) (Mmm.useKpi ctx a.useKpi) (.rf c))
      = outcomeAt ctx d s c f a.useKpi p := by
    intro p hpp
    rw [effect_useKpi hw]
    exact hout _ p hpp
  have hmarg : ∀ br, ∀ p ∈ draws', s.sum (lift ctx p D (.rf c) 1 (1 + 1 / 100) br
        (Mmm.useKpi ctx a.useKpi)) = marginalAt ctx d s c f (1 / 100) br a.useKpi p := by
    intro br p hpp
    rw [Metrics.Props.lift_useKpi hw]
    exact marginal_shown hw (hp p hpp) hd hc (fun c => R.optimal.getD c 0) s (1 / 100) br a.useKpi
  have hcost : (s.sum fun g t => dummySpend ctx rfSpend g t ((Chan.rf c).pos ctx)) = cost := by
    have e : (fun g t => dummySpend ctx rfSpend g t ((Chan.rf c).pos ctx)) = fun g t => rfSpend g t c := by
      funext g t
      show dummySpend ctx rfSpend g t (ctx.media.n + c) = _
      unfold dummySpend concat
      rw [if_neg (by omega), Nat.add_sub_cancel_left]
    rw [e]
    rfl
  have hS : ∀ {x y : Params → ℝ}, (∀ p ∈ draws', x p = y p) →
      some (summaryOf np (9 / 10) (draws'.map x) st) = S y := by
    intro x y hxy
    simp only [S]
    rw [List.map_congr_left hxy]
  obtain ⟨T, hTe, hTv⟩ := hT true
  obtain ⟨T', hTe', hTv'⟩ := hT false
  have hvars := summary_variables hTe
  have hvars' := summary_variables hTe'
  refine ⟨?_, fun h0 => ?_, fun hf h0 => ?_, fun h0 => ?_, fun h0 => ?_, fun h0 => ?_⟩
  · obtain ⟨x, hx⟩ := Option.isSome_iff_exists.1 hvars.1
    rw [hTv .incrementalOutcome c st rfl]
    simp only [FreqVar.source, hx]
    have := summary_outcome hw hDn hTe hs (hij true) hg hp (r := .one (.rf c)) (rf_mem hc) hx st
    simp only [Row.pos, Row.sum, hcell, Chan.pos] at this
    rw [this]
    exact hS houtU
  · obtain ⟨x, hx⟩ := Option.isSome_iff_exists.1 ((hvars.2.2.2.1 .roi (by simp)).2 ⟨rfl, rfl⟩)
    rw [hTv .roi c st rfl]
    simp only [FreqVar.source, hx]
    have := (summary_roi_cpik hw hDn hTe hs (hij true) hg hp (r := .one (.rf c)) (rf_mem hc) hx
      st).1 rfl
    simp only [Row.pos, Row.sum, hcell, hcost] at this
    rw [show ctx.media.n + c = (Chan.rf c).pos ctx from rfl, this h0]
    refine hS fun p hpp => ?_
    rw [houtU p hpp]
  · obtain ⟨x, hx⟩ := Option.isSome_iff_exists.1 (hvars.2.2.1.2 rfl)
    have himp : s.sum (unitsOf ctx D (.rf c)) = impressionsOf ctx d s c := by
      unfold impressionsOf
      congr 1
      funext g t
      simp only [unitsOf]
      exact (Curves.Props.impressions_kept d (fun c => R.optimal.getD c 0) _ _ c hf).1
    rw [hTv .effectiveness c st rfl]
    simp only [FreqVar.source, hx]
    have := (summary_effectiveness hw hDn rfl hTe hs (hij true) hg hp hx st).1 (.rf c) (rf_mem hc)
    simp only [hcell, himp] at this
    rw [show ctx.media.n + c = (Chan.rf c).pos ctx from rfl, this h0]
    refine hS fun p hpp => ?_
    rw [houtU p hpp]
  · obtain ⟨x, hx⟩ := Option.isSome_iff_exists.1 ((hvars.2.2.2.1 .mroi (by simp)).2 ⟨rfl, rfl⟩)
    rw [hTv .mroiByReach c st rfl]
    simp only [FreqVar.source, hx]
    have := (summary_mroi hw hDn hTe hs (hij true) hg hp hx st).1 (.rf c) (rf_mem hc)
    simp only [hcell, hcost] at this
    rw [show ctx.media.n + c = (Chan.rf c).pos ctx from rfl, this h0]
    refine hS fun p hpp => ?_
    rw [hmarg true p hpp]
  · obtain ⟨x, hx⟩ := Option.isSome_iff_exists.1 ((hvars'.2.2.2.1 .mroi (by simp)).2 ⟨rfl, rfl⟩)
    rw [hTv' .mroiByFrequency c st rfl]
    simp only [FreqVar.source, hx]
    have := (summary_mroi hw hDn hTe' hs (hij false) hg hp hx st).1 (.rf c) (rf_mem hc)
    simp only [hcell, hcost] at this
    rw [show ctx.media.n + c = (Chan.rf c).pos ctx from rfl, this h0]
    refine hS fun p hpp => ?_
    rw [hmarg false p hpp]
  · obtain ⟨x, hx⟩ := Option.isSome_iff_exists.1 ((hvars.2.2.2.1 .cpik (by simp)).2 ⟨rfl, rfl⟩)
    rw [hTv .cpik c st rfl]
    simp only [FreqVar.source, hx]
    have := (summary_roi_cpik hw hDn hTe hs (hij true) hg hp (r := .one (.rf c)) (rf_mem hc) hx
      st).2 rfl
    simp only [Row.pos, Row.sum, hcell, hcost] at this
    rw [show ctx.media.n + c = (Chan.rf c).pos ctx from rfl, this fun p hpp => by
      rw [hout true p hpp]; exact h0 p hpp]
    refine hS fun p hpp => ?_
    rw [hout true p hpp]

/-- **C80 (the optimised ROI is the optimum of the grid).** For every channel with spend, the optimised
mean ROI is the largest mean ROI of the grid. -/
theorem optimized_roi_is_maximum {ctx : Ctx} (hw : WF ctx) {np : Np} {smp : Samples} {d : Data}
    (hd : d.nMediaTimes = ctx.nMediaTimes) {rfSpend : T3} {hm : ℝ} {a : FreqArgs} {R : FreqReport}
    (h : optimalFreqReport ctx np smp d rfSpend hm a = .ok R) {s : Sel} (hs : s.Resolves ctx a.gi a.ti)
    {draws : List Params} (hg : smp.group (if a.usePosterior then .posterior else .prior) = some draws)
    (hp : ∀ p ∈ draws, SlopesPos ctx p) {c : ℕ} (hc : c < ctx.rf.n) (h0 : costOf s rfSpend c ≠ 0) :
    ∃ v, R.optimized .roi c .mean = some v ∧ (∃ k < R.grid.length, v = R.roi k c .mean) ∧
      ∀ k < R.grid.length, R.roi k c .mean ≤ v := by
  obtain ⟨k, hk, he, hmax, -⟩ := (freq_optimum h).2 c hc
  refine ⟨R.roi k c .mean, ?_, ⟨k, hk, rfl⟩, hmax⟩
  rw [(freq_optimized hw hd h hs hg hp hc .mean).2.1 h0, freq_grid_values hw hd h hs hg hp hc, he]
  rfl

/-- **C80 (the default grid).** Without a grid, with the limit `M` (the given maximum, or the largest
frequency of the data), the frequencies are 1, 1.1, 1.2, … below `M`: every frequency of the grid is at
least 1 and below `M`, and every number from 1 up to `M` has a frequency of the grid at most 0.1 below. -/
theorem default_grid (hm : ℝ) (a : FreqArgs) (hgrid : a.grid = none) {M : ℝ}
    (hM : (∃ m, a.maxFrequency = some m ∧ m ≠ 0 ∧ M = m) ∨
      ((a.maxFrequency = none ∨ a.maxFrequency = some 0) ∧ M = hm)) :
    (∀ f ∈ freqGrid hm a, 1 ≤ f ∧ f < M ∧ ∃ k : ℕ, f = 1 + k / 10) ∧
    ∀ x, 1 ≤ x → x < M → ∃ f ∈ freqGrid hm a, f ≤ x ∧ x < f + 1 / 10 := by
  have hMe : (if a.maxFrequency.getD 0 ≠ 0 then a.maxFrequency.getD 0 else hm) = M := by
    rcases hM with ⟨m, h1, h2, rfl⟩ | ⟨h1 | h1, rfl⟩
    · simp [h1, h2]
    · simp [h1]
    · simp [h1]
  unfold freqGrid
  simp only [hgrid, Option.getD_none, hMe, List.mem_map, List.mem_range]
  constructor
  · rintro f ⟨k, hk, rfl⟩
    have h1 : (k : ℤ) < ⌈(M - 1) / (1 / 10)⌉ := by omega
    have h2 := Int.lt_ceil.1 h1
    simp only [Int.cast_natCast] at h2
    have h3 : (0 : ℝ) ≤ k := k.cast_nonneg
    exact ⟨by linarith, by linarith, k, by ring⟩
  · intro x h1 h2
    have h10 : 0 ≤ (x - 1) * 10 := by linarith
    refine ⟨1 + (⌊(x - 1) * 10⌋₊ : ℝ) * (1 / 10), ⟨⌊(x - 1) * 10⌋₊, ?_, rfl⟩, ?_, ?_⟩
    · have h3 := Nat.floor_le h10
      have h4 : ((⌊(x - 1) * 10⌋₊ : ℤ) : ℝ) < (M - 1) / (1 / 10) := by
        simp only [Int.cast_natCast]
        linarith
      have := Int.lt_ceil.2 h4
      omega
    · have h3 := Nat.floor_le h10
      linarith
    · have h3 := Nat.lt_floor_add_one ((x - 1) * 10)
      linarith

/-! ### Findings -/

/-- **C80, finding.** The confidence level of the request does not reach the optimised quantities: reports
that differ only in it have the same optimised quantities, although each says that its level is the
requested one. -/
theorem optimized_level_ignored {ctx : Ctx} {np : Np} {smp : Samples} {d : Data} {rfSpend : T3} {hm : ℝ}
    {a : FreqArgs} {level : ℝ} {R R' : FreqReport}
    (h : optimalFreqReport ctx np smp d rfSpend hm a = .ok R)
    (h' : optimalFreqReport ctx np smp d rfSpend hm { a with level := level } = .ok R') :
    R'.level = level ∧ ∀ v c st, R'.optimized v c st = R.optimized v c st := by
  obtain ⟨draws, hg, -, hgrid, -, hroi, hlen, hopt, hT⟩ := report_eq h
  obtain ⟨draws', hg', -, hgrid', hl', hroi', hlen', hopt', hT'⟩ := report_eq h'
  refine ⟨hl', ?_⟩
  simp only at hg'
  obtain rfl : draws' = draws := by rw [hg] at hg'; exact (Option.some.inj hg').symm
  have hgr : R'.grid = R.grid := by rw [hgrid, hgrid']; rfl
  have hr : ∀ k c, R'.roi k c .mean = R.roi k c .mean := by
    intro k c
    rw [hroi, hroi', hgr]
    rfl
  have ho : R'.optimal = R.optimal := by
    refine List.ext_getElem (by rw [hlen, hlen']) fun c h1 h2 => ?_
    obtain ⟨k, hk, e⟩ := hopt c (by omega)
    obtain ⟨k', hk', e'⟩ := hopt' c (by omega)
    simp only [hgr, hr] at hk'
    rw [hk] at hk'
    obtain rfl := Option.some.inj hk'
    rw [hgr, ← e] at e'
    simpa [List.getD_eq_getElem?_getD, h1, h2] using e'
  intro v c st
  obtain ⟨T, h1, h2⟩ := hT v.source.2
  obtain ⟨T', h1', h2'⟩ := hT' v.source.2
  rw [ho] at h1'
  simp only at h1'
  rw [h1] at h1'
  obtain rfl := Except.ok.inj h1'
  rw [h2 v c st rfl, h2' v c st rfl]

/-- **C80, finding.** With `use_posterior=False` and no posterior, the draws of the prior that the error
message asks for are there, but the request still fails: the optimised quantities need both. -/
theorem prior_only_rejected (ctx : Ctx) (np : Np) (smp : Samples) (d : Data) (rfSpend : T3) (hm : ℝ)
    (a : FreqArgs) (h : smp.posterior = none) :
    ¬ ∃ R, optimalFreqReport ctx np smp d rfSpend hm a = .ok R := by
  rw [freq_accepted_iff]
  simp [h]

/-- **C80, finding.** The default grid is empty, and the request fails, when no frequency of the data
exceeds 1, or when the given maximum is at most 1 and not 0.  A maximum of 0 is taken as not given. -/
theorem low_frequency_rejected (ctx : Ctx) (np : Np) (smp : Samples) (d : Data) (rfSpend : T3) (hm : ℝ)
    (a : FreqArgs) (hgrid : a.grid = none) :
    ((a.maxFrequency = none → hm ≤ 1 → ¬ ∃ R, optimalFreqReport ctx np smp d rfSpend hm a = .ok R) ∧
    (∀ m, a.maxFrequency = some m → m ≠ 0 → m ≤ 1 →
      ¬ ∃ R, optimalFreqReport ctx np smp d rfSpend hm a = .ok R)) ∧
    freqGrid hm { a with maxFrequency := some 0 } = freqGrid hm { a with maxFrequency := none } := by
  have key : ∀ M, M ≤ 1 → ((∃ m, a.maxFrequency = some m ∧ m ≠ 0 ∧ M = m) ∨
      ((a.maxFrequency = none ∨ a.maxFrequency = some 0) ∧ M = hm)) →
      ¬ ∃ R, optimalFreqReport ctx np smp d rfSpend hm a = .ok R := by
    intro M hM h
    rw [freq_accepted_iff]
    rintro ⟨-, hne, -⟩
    obtain ⟨f, hf⟩ := List.exists_mem_of_ne_nil _ hne
    have := (default_grid hm a hgrid h).1 f hf
    linarith [this.1, this.2.1]
  refine ⟨⟨fun h1 h2 => key hm h2 (.inr ⟨.inl h1, rfl⟩), fun m h1 h2 h3 => key m h3 (.inl ⟨m, h1, h2, rfl⟩)⟩,
    ?_⟩
  simp [freqGrid]

/-! ### Concrete cases -/

/-- The hypotheses of the theorems are met: the request for the second geo is accepted, with the default
grid up to 3 and with the grid `[1, 2]`, and for the prior; the channel has spend and impressions. -/
example (grid : Bool) (posterior : Bool) :
    let ctx := Mmm.Props.demo .hill
    let a : FreqArgs := { grid := if grid then some [1, 2] else none, gi := some [1],
                          usePosterior := posterior }
    WF ctx ∧ ctx.data.nMediaTimes = ctx.nMediaTimes ∧ 0 < ctx.rf.n ∧
    (∃ R, optimalFreqReport ctx demoNp demoSamples ctx.data (fun _ _ _ => 1) 3 a = .ok R) ∧
    Metrics.Props.demoSel.Resolves ctx a.gi a.ti ∧
    costOf Metrics.Props.demoSel (fun _ _ _ => 1) 0 = 2 ∧
    impressionsOf ctx ctx.data Metrics.Props.demoSel 0 = 4 + 9 := by
  intro ctx a
  have hsum : ∀ f, Metrics.Props.demoSel.sum f = f 1 0 + f 1 1 := by
    intro f
    have hs : Metrics.Props.demoSel.Resolves (Mmm.Props.demo .hill) ({ gi := some [1] } : Args).gi
        ({ gi := some [1] } : Args).ti := Metrics.Props.demo_resolves
    rw [← cellSum_all hs rfl rfl]
    exact (demo_cell rfl rfl rfl rfl f).2
  refine ⟨Mmm.Props.demo_wf _, rfl, by norm_num [ctx, Mmm.Props.demo], ?_, Metrics.Props.demo_resolves, ?_,
    ?_⟩
  · rw [freq_accepted_iff]
    refine ⟨by norm_num [ctx, Mmm.Props.demo], ?_, rfl, rfl⟩
    cases grid
    · obtain ⟨f, hf, -⟩ := (default_grid 3 a rfl (M := 3) (.inr ⟨.inl rfl, rfl⟩)).2 1 le_rfl (by norm_num)
      exact List.ne_nil_of_mem hf
    · simp [freqGrid, a]
  · unfold costOf
    rw [hsum]
    norm_num
  · unfold impressionsOf
    rw [hsum]
    norm_num [unitsOf, ctx, Mmm.Props.demo]

/-- The level matters to the reported intervals: with the stand-in order statistics the lower bound of the
grid depends on it, the optimised one by `optimized_level_ignored` does not. -/
example (l : List ℝ) (h : l.sum ≠ 0) : stat demoNp (9 / 10) .ciLo l ≠ stat demoNp (1 / 2) .ciLo l := by
  simp only [stat, demoNp]
  intro he
  apply h
  linarith

end Verif.FreqReport.Props
