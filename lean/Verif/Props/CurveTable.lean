import Verif.Props.FreqReport
import Verif.Spec.CurveTable

/-!
# C113: the table of response curves
-/

namespace Verif.CurveTable.Props

open Verif.Mmm Verif.Mmm.Spec Verif.Selection Verif.Selection.Spec Verif.Metrics
open Verif.Metrics.Spec Verif.Curves Verif.Results Verif.Summary Verif.Summary.Spec
open Verif.CurveTable.Spec
open Verif.Summary.Props (stat_eq demoNp)
open Verif.FreqReport.Spec (outcomeAt costOf)

variable {ctx : Ctx} {np : Np} {smp : Samples} {d : Data} {spend : T3} {hm : ℝ} {a : CurveTable.Args}

/-- The distribution of a request. -/
abbrev distOf (a : CurveTable.Args) : Dist := if a.usePosterior then .posterior else .prior

theorem row_ok_iff (D : Data) (k : ℝ) : (∃ r, curveRow ctx np smp D a k = .ok r) ↔
    0 ≤ k ∧ (k ≠ 0 → (smp.group (distOf a)).isSome) := by
  unfold curveRow
  by_cases h0 : k = 0
  · simp [h0]
  rw [if_neg h0]
  cases hg : smp.group (distOf a) with
  | none => simp [h0]
  | some draws =>
    simp only [h0, ne_eq, not_false_eq_true, Option.isSome_some, forall_const, and_true]
    rcases lt_or_gt_of_ne h0 with hk | hk
    · simp [checkFactors, hk, hk.not_ge]
    · simp [checkFactors, hk.le, not_lt.2 hk.le, not_le.2 hk]

theorem rows_ok_iff (D : Data) (l : List ℝ) : (∃ r, curveRows ctx np smp D a l = .ok r) ↔
    ∀ k ∈ l, ∃ r, curveRow ctx np smp D a k = .ok r := by
  induction l with
  | nil => simp [curveRows]
  | cons k l ih =>
    rw [curveRows]
    cases h1 : curveRow ctx np smp D a k with
    | error e =>
      simp only [reduceCtorEq, exists_false, false_iff]
      intro h
      obtain ⟨r, hr⟩ := h k (by simp)
      rw [h1] at hr
      cases hr
    | ok r =>
      cases h2 : curveRows ctx np smp D a l with
      | error e =>
        rw [h2] at ih
        simp only [reduceCtorEq, exists_false, false_iff] at ih ⊢
        exact fun h => ih fun k' hk' => h k' (by simp [hk'])
      | ok rs =>
        rw [h2] at ih
        simp only [Except.ok.injEq, exists_eq', true_iff] at ih ⊢
        intro k' hk'
        rcases List.mem_cons.1 hk' with rfl | hk'
        · exact ⟨r, h1⟩
        · exact ih k' hk'

theorem rows_getD {D : Data} {l : List ℝ} {rs : List (ℕ → Band → ℝ)}
    (h : curveRows ctx np smp D a l = .ok rs) : ∀ i < l.length,
      curveRow ctx np smp D a (l.getD i 0) = .ok (rs.getD i fun _ _ => 0) := by
  induction l generalizing rs with
  | nil => simp
  | cons k l ih =>
    rw [curveRows] at h
    cases h1 : curveRow ctx np smp D a k with
    | error e => simp [h1] at h
    | ok r =>
      cases h2 : curveRows ctx np smp D a l with
      | error e => simp [h1, h2] at h
      | ok rs' =>
        simp only [h1, h2, Except.ok.injEq] at h
        subst h
        intro i hi
        cases i with
        | zero => simpa using h1
        | succ i => simpa using ih h2 i (by simpa using hi)

theorem data_ok_iff : (∃ D, curveData ctx np smp d spend hm a = .ok D) ↔
    (0 < ctx.rf.n → a.useOptimalFrequency = true →
      1 < hm ∧ smp.prior.isSome ∧ smp.posterior.isSome) := by
  unfold curveData
  by_cases h : 0 < ctx.rf.n ∧ a.useOptimalFrequency = true
  · rw [if_pos h]
    have key := FreqReport.Props.freq_accepted_iff ctx np smp d (fun g t c => spend g t (ctx.media.n + c)) hm
      { gi := a.gi, ti := a.ti, useKpi := a.useKpi }
    have hgrid : freqGrid hm { gi := a.gi, ti := a.ti, useKpi := a.useKpi } ≠ [] ↔ 1 < hm := by
      have hd := FreqReport.Props.default_grid hm { gi := a.gi, ti := a.ti, useKpi := a.useKpi } rfl
        (M := hm) (.inr ⟨.inl rfl, rfl⟩)
      constructor
      · intro hne
        obtain ⟨f, hf⟩ := List.exists_mem_of_ne_nil _ hne
        obtain ⟨h1, h2, -⟩ := hd.1 f hf
        exact h1.trans_lt h2
      · intro h1
        obtain ⟨f, hf, -⟩ := hd.2 1 le_rfl h1
        exact List.ne_nil_of_mem hf
    rw [hgrid] at key
    cases ho : optimalFreqReport ctx np smp d (fun g t c => spend g t (ctx.media.n + c)) hm
        { gi := a.gi, ti := a.ti, useKpi := a.useKpi } with
    | error e =>
      rw [ho] at key
      simp only [reduceCtorEq, exists_false, false_iff] at key ⊢
      exact fun hc => key ⟨h.1, hc h.1 h.2⟩
    | ok r =>
      rw [ho] at key
      simp only [Except.ok.injEq, exists_eq', true_iff] at key ⊢
      exact fun _ _ => key.2
  · rw [if_neg h]
    simp only [Except.ok.injEq, exists_eq', true_iff]
    exact fun h1 h2 => absurd ⟨h1, h2⟩ h

/-- **C113 (accepted requests).** The curves are given exactly if no multiplier is negative, the requested
distribution has been sampled unless all multipliers are zero, and, if the optimal frequency is asked for
in a model with reach and frequency, both distributions have been sampled and some frequency of the data
is above one. -/
theorem curves_accepted_iff (ctx : Ctx) (np : Np) (smp : Samples) (d : Data) (spend : T3) (hm : ℝ)
    (a : CurveTable.Args) :
    (∃ T, responseCurves ctx np smp d spend hm a = .ok T) ↔
      (∀ k ∈ multipliers a, 0 ≤ k ∧ (k ≠ 0 → (smp.group (distOf a)).isSome)) ∧
      (0 < ctx.rf.n → a.useOptimalFrequency = true →
        1 < hm ∧ smp.prior.isSome ∧ smp.posterior.isSome) := by
  have hd := data_ok_iff (ctx := ctx) (np := np) (smp := smp) (d := d) (spend := spend) (hm := hm) (a := a)
  rw [← hd]
  unfold responseCurves
  cases hD : curveData ctx np smp d spend hm a with
  | error e => simp
  | ok D =>
    have hr := rows_ok_iff (ctx := ctx) (np := np) (smp := smp) (a := a) D (multipliers a)
    simp only [row_ok_iff] at hr
    rw [← hr]
    cases hR : curveRows ctx np smp D a (multipliers a) <;> simp [hR]

/-- The parts of an accepted table. -/
theorem table_eq {T : CurveTable.Table} (h : responseCurves ctx np smp d spend hm a = .ok T) :
    ∃ D, curveData ctx np smp d spend hm a = .ok D ∧ T.multipliers = multipliers a ∧ T.level = a.level ∧
      (∀ i m, T.spend i m
        = T.multipliers.getD i 0 * total ctx (fun g t => spend g t m) a.gi a.ti) ∧
      ∀ i < T.multipliers.length,
        curveRow ctx np smp D a (T.multipliers.getD i 0) = .ok (T.outcome i) := by
  unfold responseCurves at h
  cases hD : curveData ctx np smp d spend hm a with
  | error e => simp [hD] at h
  | ok D =>
    simp only [hD] at h
    cases hR : curveRows ctx np smp D a (multipliers a) with
    | error e => simp [hR] at h
    | ok rs =>
      simp only [hR, Except.ok.injEq] at h
      subst h
      exact ⟨D, rfl, rfl, rfl, fun _ _ => rfl, fun i hi => rows_getD hR i hi⟩

/-- **C113 (coordinates).** The multipliers of the table are the given ones, by default 0, 0.2, …, 2; the
spend of a channel is the multiplier times its spend over the selected geos and times; and the table
carries the requested confidence level. -/
theorem curves_coordinates {T : CurveTable.Table} (h : responseCurves ctx np smp d spend hm a = .ok T)
    {s : Sel} (hs : s.Resolves ctx a.gi a.ti) :
    (∀ l, a.multipliers = some l → T.multipliers = l) ∧
    (a.multipliers = none →
      T.multipliers = [0, 1 / 5, 2 / 5, 3 / 5, 4 / 5, 1, 6 / 5, 7 / 5, 8 / 5, 9 / 5, 2]) ∧
    (∀ i k m, T.multipliers[i]? = some k → T.spend i m = k * s.sum fun g t => spend g t m) ∧
    T.level = a.level := by
  obtain ⟨D, -, hm1, hl, hsp, -⟩ := table_eq h
  refine ⟨?_, ?_, ?_, hl⟩
  · intro l hl
    rw [hm1, multipliers, hl]
  · intro hn
    rw [hm1, multipliers, hn]
    have : ⌈((22 : ℝ) / 10 - 0) / (2 / 10)⌉.toNat = 11 := by
      have : ((22 : ℝ) / 10 - 0) / (2 / 10) = ((11 : ℤ) : ℝ) := by norm_num
      rw [this, Int.ceil_intCast]
      rfl
    simp only [this]
    norm_num [List.range_succ]
  · intro i k m hk
    rw [hsp, Curves.total_eq hs]
    simp [List.getD_eq_getElem?_getD, hk]

theorem row_values (hw : WF ctx) {D : Data} (hD : D.nMediaTimes = ctx.nMediaTimes) {s : Sel}
    (hs : s.Resolves ctx a.gi a.ti) {draws : List Params} (hg : smp.group (distOf a) = some draws)
    (hp : ∀ p ∈ draws, SlopesPos ctx p) {ch : Chan} (hv : ch.Valid ctx) (hpaid : Paid ch) {k : ℝ}
    {r : ℕ → Band → ℝ} (h : curveRow ctx np smp D a k = .ok r) (b : Band) :
    (k = 0 → r (ch.pos ctx) b = 0) ∧
    (k ≠ 0 → r (ch.pos ctx) b
      = summaryOf np a.level (draws.map (gain ctx D s ch k a.byReach a.useKpi)) b.stat) := by
  unfold curveRow at h
  by_cases h0 : k = 0
  · rw [if_pos h0] at h
    simp only [Except.ok.injEq] at h
    subst h
    exact ⟨fun _ => rfl, fun hne => absurd h0 hne⟩
  · rw [if_neg h0] at h
    refine ⟨fun he => absurd he h0, fun _ => ?_⟩
    change (match smp.group (distOf a) with
      | none => Except.error Summary.Err.notFitted
      | some draws => _) = _ at h
    simp only [hg] at h
    cases hf : checkFactors 0 k with
    | error e => simp [hf] at h
    | ok u =>
      simp only [hf, Except.ok.injEq] at h
      subst h
      simp only
      rw [stat_eq]
      congr 1
      refine List.map_congr_left fun p hpp => ?_
      rw [Curves.total_eq hs]
      unfold gain
      simp only [Metrics.Props.inc_lift hw (hp p hpp) D hD hv hpaid]
      rw [Metrics.Props.lift_useKpi hw]

theorem stat_eq (b : Band) : b.stat = statistic b := by cases b <;> rfl

/-- **C113 (the points).** Without the optimal frequency, every point of the table is zero at multiplier
zero and otherwise holds the mean and the interval, at the requested level and over the draws of the
requested distribution, of the incremental outcome of the channel over the selected geos and times when it
runs at that multiple of its executions. -/
theorem curves_points (hw : WF ctx) (hd : d.nMediaTimes = ctx.nMediaTimes)
    (ho : a.useOptimalFrequency = false) {T : CurveTable.Table}
    (h : responseCurves ctx np smp d spend hm a = .ok T) {s : Sel} (hs : s.Resolves ctx a.gi a.ti)
    {draws : List Params} (hg : smp.group (distOf a) = some draws) (hp : ∀ p ∈ draws, SlopesPos ctx p)
    {ch : Chan} (hv : ch.Valid ctx) (hpaid : Paid ch) {i : ℕ} {k : ℝ} (hk : T.multipliers[i]? = some k)
    (b : Band) :
    (k = 0 → T.outcome i (ch.pos ctx) b = 0) ∧
    (k ≠ 0 → T.outcome i (ch.pos ctx) b
      = summaryOf np a.level (draws.map (gain ctx d s ch k a.byReach a.useKpi)) (statistic b)) := by
  rw [← stat_eq b]
  obtain ⟨D, hD, -, -, -, hrow⟩ := table_eq h
  have hDd : D = d := by
    unfold curveData at hD
    rw [if_neg (by simp [ho])] at hD
    exact (Except.ok.inj hD).symm
  subst hDd
  have hi : i < T.multipliers.length := by
    by_contra hlt
    rw [List.getElem?_eq_none (by simpa using hlt)] at hk
    cases hk
  have := hrow i hi
  rw [List.getD_eq_getElem?_getD, hk] at this
  exact row_values hw hd hs hg hp hv hpaid this b

theorem atFrequency_shown (d : Data) (f : ℕ → ℝ) : atFrequency d f = Results.Spec.shownAt d (some f) := by
  unfold atFrequency Results.Spec.shownAt
  simp

theorem freq_of_data {D : Data} (hw : WF ctx) (hd : d.nMediaTimes = ctx.nMediaTimes) (hn : 0 < ctx.rf.n)
    (ho : a.useOptimalFrequency = true) (hD : curveData ctx np smp d spend hm a = .ok D) {s : Sel}
    (hs : s.Resolves ctx a.gi a.ti) {post : List Params} (hq : smp.posterior = some post)
    (hp : ∀ p ∈ post, SlopesPos ctx p) :
    ∃ f : ℕ → ℝ, D = Results.Spec.shownAt d (some f) ∧
      (∀ c < ctx.rf.n, Best ctx d s (fun g t c => spend g t (ctx.media.n + c)) c (f c) hm a.useKpi post) := by
  unfold curveData at hD
  rw [if_pos ⟨hn, ho⟩] at hD
  cases hR : optimalFreqReport ctx np smp d (fun g t c => spend g t (ctx.media.n + c)) hm
      { gi := a.gi, ti := a.ti, useKpi := a.useKpi } with
  | error e => simp [hR] at hD
  | ok R =>
    simp only [hR, Except.ok.injEq] at hD
    refine ⟨fun c => R.optimal.getD c 0, by rw [← hD, atFrequency_shown], fun c hc => ?_⟩
    have hg : smp.group (if (FreqArgs.usePosterior { gi := a.gi, ti := a.ti, useKpi := a.useKpi }) then
        .posterior else .prior) = some post := hq
    obtain ⟨-, -, -, hgrid, -⟩ := FreqReport.Props.report_eq hR
    obtain ⟨k, hk, he, hmax, -⟩ := (FreqReport.Props.freq_optimum hR).2 c hc
    have hdg := FreqReport.Props.default_grid hm { gi := a.gi, ti := a.ti, useKpi := a.useKpi } rfl
      (M := hm) (.inr ⟨.inl rfl, rfl⟩)
    rw [← hgrid] at hdg
    have hval : ∀ k', R.roi k' c .mean = meanRoiAt ctx d s (fun g t c => spend g t (ctx.media.n + c)) c
        (R.grid.getD k' 0) a.useKpi post := by
      intro k'
      rw [FreqReport.Props.freq_grid_values hw hd hR hs hg hp hc]
      simp [summaryOf, meanRoiAt]
    have hmem : ∀ k' < R.grid.length, R.grid.getD k' 0 ∈ R.grid := by
      intro k' hk'
      rw [List.getD_eq_getElem?_getD, List.getElem?_eq_getElem hk']
      exact List.getElem_mem hk'
    refine ⟨?_, ?_⟩
    · obtain ⟨-, h2, j, h3⟩ := hdg.1 _ (hmem k hk)
      refine ⟨j, ?_, ?_⟩
      · simp only [he]; exact h3
      · simp only [he]; exact h2
    · intro j hj
      have hmemj : (1 : ℝ) + j / 10 ∈ R.grid := by
        rw [hgrid]
        unfold freqGrid
        simp only [Option.getD_none, ne_eq, not_true_eq_false, if_false, List.mem_map, List.mem_range]
        refine ⟨j, ?_, by ring⟩
        have : (j : ℤ) < ⌈(hm - 1) / (1 / 10)⌉ := by
          rw [Int.lt_ceil, lt_div_iff₀ (by norm_num)]
          push_cast
          linarith
        omega
      obtain ⟨k', hk', e⟩ := List.getElem_of_mem hmemj
      have := hmax k' hk'
      rw [hval, hval, show R.grid.getD k' 0 = 1 + j / 10 by
        rw [List.getD_eq_getElem?_getD, List.getElem?_eq_getElem hk', e]; rfl] at this
      simp only [he]
      exact this

/-- **C113 (at the optimal frequency).** With the optimal frequency, in a model with reach and frequency,
every point is computed with the impressions of all these channels shown at frequencies that are, among
1, 1.1, 1.2, … below the largest frequency of the data, best for the mean ROI over the posterior draws in
the selection; all else is as without. -/
theorem curves_at_optimum (hw : WF ctx) (hd : d.nMediaTimes = ctx.nMediaTimes) (hn : 0 < ctx.rf.n)
    (ho : a.useOptimalFrequency = true) {T : CurveTable.Table}
    (h : responseCurves ctx np smp d spend hm a = .ok T) {s : Sel} (hs : s.Resolves ctx a.gi a.ti)
    {post : List Params} (hq : smp.posterior = some post) (hpq : ∀ p ∈ post, SlopesPos ctx p)
    {draws : List Params} (hg : smp.group (distOf a) = some draws) (hp : ∀ p ∈ draws, SlopesPos ctx p) :
    ∃ f : ℕ → ℝ,
      (∀ c < ctx.rf.n, Best ctx d s (fun g t c => spend g t (ctx.media.n + c)) c (f c) hm a.useKpi post) ∧
      ∀ ch : Chan, ch.Valid ctx → Paid ch → ∀ (i : ℕ) k, T.multipliers[i]? = some k → ∀ b,
        (k = 0 → T.outcome i (ch.pos ctx) b = 0) ∧
        (k ≠ 0 → T.outcome i (ch.pos ctx) b = summaryOf np a.level
          (draws.map (gain ctx (Results.Spec.shownAt d (some f)) s ch k a.byReach a.useKpi)) (statistic b)) := by
  obtain ⟨D, hD, -, -, -, hrow⟩ := table_eq h
  obtain ⟨f, rfl, hbest⟩ := freq_of_data hw hd hn ho hD hs hq hpq
  refine ⟨f, hbest, fun ch hv hpaid i k hk b => ?_⟩
  rw [← stat_eq b]
  have hi : i < T.multipliers.length := by
    by_contra hlt
    rw [List.getElem?_eq_none (by simpa using hlt)] at hk
    cases hk
  have := hrow i hi
  rw [List.getD_eq_getElem?_getD, hk] at this
  exact row_values hw (D := Results.Spec.shownAt d (some f)) hd hs hg hp hv hpaid this b

theorem gain_linear (hw : WF ctx) {p : Params} (hp : SlopesPos ctx p) {D : Data}
    (hD : D.nMediaTimes = ctx.nMediaTimes) {c : ℕ} (hc : c < ctx.rf.n) (s : Sel) (k : ℝ) (uk : Bool) :
    gain ctx D s (.rf c) k true uk p = k * gain ctx D s (.rf c) 1 true uk p := by
  unfold gain
  have e : lift ctx p D (.rf c) 0 k true uk = fun g t => lift ctx p D (.rf c) 0 1 true uk g t * k := by
    funext g t
    rw [← Metrics.Props.inc_lift hw hp D hD (ch := .rf c) hc trivial,
      ← Metrics.Props.inc_lift hw hp D hD (ch := .rf c) hc trivial,
      incrementalOutcome_media hw hp (ch := .rf c) hc trivial,
      incrementalOutcome_media hw hp (ch := .rf c) hc trivial,
      value_treat_self (ch := .rf c) trivial, value_treat_self (ch := .rf c) trivial,
      value_treat_self (ch := .rf c) trivial, Curves.Props.value_linear_reach c k,
      Curves.Props.value_linear_reach c 0]
    ring
  rw [e, Metrics.Props.sum_mul_right, mul_comm]

theorem gain_shown (hw : WF ctx) {p : Params} (hp : SlopesPos ctx p)
    (hd : d.nMediaTimes = ctx.nMediaTimes) {c : ℕ} (hc : c < ctx.rf.n) (s : Sel) (f : ℕ → ℝ) (uk : Bool) :
    gain ctx (Results.Spec.shownAt d (some f)) s (.rf c) 1 true uk p = outcomeAt ctx d s c (f c) uk p := by
  unfold gain outcomeAt
  congr 1
  refine FreqReport.Props.lift_own (d := Results.Spec.shownAt d (some f))
    (d' := FreqReport.Spec.shownAt d c (f c)) hw hp hd hc rfl ?_ ?_ rfl 0 1 true uk
  · intro g t
    simp [Results.Spec.shownAt, FreqReport.Spec.shownAt]
  · intro g t
    simp [Results.Spec.shownAt, FreqReport.Spec.shownAt]

/-- **C113 (no better frequency).** A posterior curve by reach at the optimal frequency is nowhere below
the mean curve the channel would have with its impressions at any other frequency of the search, if the
channel has spend in the selection. -/
theorem optimal_curve_highest (hw : WF ctx) (hd : d.nMediaTimes = ctx.nMediaTimes)
    (ho : a.useOptimalFrequency = true) (hpost : a.usePosterior = true) (hbr : a.byReach = true)
    {T : CurveTable.Table} (h : responseCurves ctx np smp d spend hm a = .ok T) {s : Sel}
    (hs : s.Resolves ctx a.gi a.ti) {post : List Params} (hq : smp.posterior = some post)
    (hp : ∀ p ∈ post, SlopesPos ctx p) {c : ℕ} (hc : c < ctx.rf.n)
    (hcost : 0 < costOf s (fun g t c => spend g t (ctx.media.n + c)) c) {i : ℕ} {k : ℝ}
    (hk : T.multipliers[i]? = some k) (j : ℕ) (hj : (1 : ℝ) + j / 10 < hm) :
    (post.map (gain ctx (FreqReport.Spec.shownAt d c (1 + j / 10)) s (.rf c) k true a.useKpi)).sum
        / post.length ≤ T.outcome i ((Chan.rf c).pos ctx) .mean := by
  have hn : 0 < ctx.rf.n := by omega
  have hg : smp.group (distOf a) = some post := by simp [distOf, hpost, Samples.group, hq]
  have hk0 : 0 ≤ k := by
    have := ((curves_accepted_iff ctx np smp d spend hm a).1 ⟨T, h⟩).1
    obtain ⟨D, -, hm1, -⟩ := table_eq h
    exact (this k (hm1 ▸ List.mem_of_getElem? hk)).1
  obtain ⟨f, hbest, hpt⟩ := curves_at_optimum hw hd hn ho h hs hq hp hg hp
  have hlhs : (post.map (gain ctx (FreqReport.Spec.shownAt d c (1 + j / 10)) s (.rf c) k true a.useKpi)).sum
      = k * (post.map (outcomeAt ctx d s c (1 + j / 10) a.useKpi)).sum := by
    rw [← List.sum_map_mul_left]
    congr 1
    refine List.map_congr_left fun p hpp => ?_
    rw [gain_linear hw (hp p hpp) (D := FreqReport.Spec.shownAt d c (1 + j / 10)) hd hc]
    rfl
  have hle := (hbest c hc).2 j hj
  have hroi : ∀ x, meanRoiAt ctx d s (fun g t c => spend g t (ctx.media.n + c)) c x a.useKpi post
      = (post.map (outcomeAt ctx d s c x a.useKpi)).sum / post.length
        / costOf s (fun g t c => spend g t (ctx.media.n + c)) c := by
    intro x
    unfold meanRoiAt
    rw [Metrics.Props.sum_map_div]
    ring
  rw [hroi, hroi, div_le_div_iff_of_pos_right hcost] at hle
  rw [hlhs, mul_div_assoc]
  by_cases hk1 : k = 0
  · rw [(hpt (.rf c) hc trivial i k hk .mean).1 hk1, hk1, zero_mul]
  · rw [(hpt (.rf c) hc trivial i k hk .mean).2 hk1]
    simp only [Band.stat, statistic, summaryOf, List.length_map, hbr]
    have : (post.map (gain ctx (Results.Spec.shownAt d (some f)) s (.rf c) k true a.useKpi)).sum
        = k * (post.map (outcomeAt ctx d s c (f c) a.useKpi)).sum := by
      rw [← List.sum_map_mul_left]
      congr 1
      refine List.map_congr_left fun p hpp => ?_
      rw [gain_linear hw (hp p hpp) (D := Results.Spec.shownAt d (some f)) hd hc,
        gain_shown hw (hp p hpp) hd hc]
    rw [this, mul_div_assoc]
    exact mul_le_mul_of_nonneg_left hle hk0

/-! ### Findings -/

/-- **C113, finding.** Prior curves at the optimal frequency ("if `False`, prior response curves are
generated") are at the frequencies that are best for the posterior: they need posterior draws, and the
frequencies do not depend on the prior draws. -/
theorem prior_curves_use_posterior (ctx : Ctx) (np : Np) (d : Data) (spend : T3) (hm : ℝ)
    (a : CurveTable.Args) (hn : 0 < ctx.rf.n) (ho : a.useOptimalFrequency = true) :
    (∀ prior, ¬ ∃ T, responseCurves ctx np ⟨prior, none⟩ d spend hm a = .ok T) ∧
    ∀ prior prior' post D D', curveData ctx np ⟨some prior, some post⟩ d spend hm a = .ok D →
      curveData ctx np ⟨some prior', some post⟩ d spend hm a = .ok D' → D = D' := by
  constructor
  · intro prior h
    have := (((curves_accepted_iff _ _ _ _ _ _ _).1 h).2 hn ho).2.2
    simp at this
  · intro prior prior' post D D' h h'
    unfold curveData at h h'
    rw [if_pos ⟨hn, ho⟩] at h h'
    cases hR : optimalFreqReport ctx np ⟨some prior, some post⟩ d
        (fun g t c => spend g t (ctx.media.n + c)) hm { gi := a.gi, ti := a.ti, useKpi := a.useKpi } with
    | error e => simp [hR] at h
    | ok R =>
      cases hR' : optimalFreqReport ctx np ⟨some prior', some post⟩ d
          (fun g t c => spend g t (ctx.media.n + c)) hm { gi := a.gi, ti := a.ti, useKpi := a.useKpi } with
      | error e => simp [hR'] at h'
      | ok R' =>
        simp only [hR, hR', Except.ok.injEq] at h h'
        subst h
        subst h'
        obtain ⟨q, hq, -, hgr, -, hroi, hl, hopt, -⟩ := FreqReport.Props.report_eq hR
        obtain ⟨q', hq', -, hgr', -, hroi', hl', hopt', -⟩ := FreqReport.Props.report_eq hR'
        have hqq : q = q' := by
          simp only [Samples.group, if_true, Option.some.injEq] at hq hq'
          rw [← hq, ← hq']
        have hg2 : R.grid = R'.grid := by rw [hgr, hgr']
        have : R.optimal = R'.optimal := by
          apply List.ext_getElem (by rw [hl, hl'])
          intro c h1 h2
          obtain ⟨k, hk, e⟩ := hopt c (by omega)
          obtain ⟨k', hk', e'⟩ := hopt' c (by omega)
          have hkk : k = k' := by
            simp only [hroi] at hk
            simp only [hroi'] at hk'
            rw [hqq, hg2, hk'] at hk
            exact (Option.some.inj hk).symm
          rw [List.getD_eq_getElem?_getD, List.getElem?_eq_getElem h1] at e
          rw [List.getD_eq_getElem?_getD, List.getElem?_eq_getElem h2] at e'
          simp only [Option.getD_some] at e e'
          rw [e, e', hg2, hkk]
        rw [this]

/-! ### Concrete cases -/

theorem demo_sum (f : ℕ → ℕ → ℝ) : Metrics.Props.demoSel.sum f = f 1 0 + f 1 1 := by
  have hs : Metrics.Props.demoSel.Resolves (Mmm.Props.demo .hill) ({ gi := some [1] } : Summary.Args).gi
      ({ gi := some [1] } : Summary.Args).ti := Metrics.Props.demo_resolves
  rw [← FreqReport.Props.cellSum_all hs rfl rfl]
  exact (Summary.Props.demo_cell rfl rfl rfl rfl f).2

/-- A draw of the model of `Verif.Mmm.Props.demo` with the given Hill parameters of the reach and frequency
channel. -/
noncomputable def draw (ec slope : ℝ) : Params :=
  { Mmm.Props.demoParams 1 with rf := ⟨fun _ => 1 / 2, fun _ => ec, fun _ => slope, fun _ _ => 1⟩ }

theorem draw_slopes {ec slope : ℝ} (h : 0 < slope) : SlopesPos (Mmm.Props.demo .hill) (draw ec slope) := by
  simp [SlopesPos, draw, Mmm.Props.demoParams]
  exact fun _ _ => h

theorem demo_outcome {ec slope : ℝ} (h : 0 < slope) (f : ℝ) :
    outcomeAt (Mmm.Props.demo .hill) (Mmm.Props.demo .hill).data Metrics.Props.demoSel 0 f false
      (draw ec slope) = 78 / f * (f ^ slope / (f ^ slope + ec ^ slope)) := by
  unfold outcomeAt
  rw [demo_sum]
  have key : ∀ t < 2, lift (Mmm.Props.demo .hill) (draw ec slope)
      (FreqReport.Spec.shownAt (Mmm.Props.demo .hill).data 0 f) (.rf 0) 0 1 true false 1 t
      = 6 * ((t : ℝ) + 2) ^ 2 / f * (f ^ slope / (f ^ slope + ec ^ slope)) := by
    intro t ht
    rw [← Metrics.Props.inc_lift (Mmm.Props.demo_wf _) (draw_slopes h)
        (FreqReport.Spec.shownAt (Mmm.Props.demo .hill).data 0 f) rfl (ch := .rf 0)
        (by simp [Chan.Valid, Mmm.Props.demo]) trivial,
      incrementalOutcome_media (Mmm.Props.demo_wf _) (draw_slopes h) (ch := .rf 0)
        (by simp [Chan.Valid, Mmm.Props.demo]) trivial]
    have hv : ∀ x, Mmm.value (Mmm.Props.demo .hill) (draw ec slope) (scaleData (Mmm.Props.demo .hill)
        (treat (FreqReport.Spec.shownAt (Mmm.Props.demo .hill).data 0 f) (.rf 0) x (fun _ => true) true))
        2 (.rf 0) 1 t = x * ((t : ℝ) + 2) ^ 2 / 2 / f * (f ^ slope / (f ^ slope + ec ^ slope)) := by
      intro x
      show adstockHillRf (Mmm.Props.demo .hill) (Mmm.Props.demo .hill).rf _ 2 2 _ _ 1 t 0 = _
      unfold adstockHillRf
      rw [Mmm.Props.demo_adstock _ (Mmm.Props.demo .hill).rf rfl _ _ _ _ _ ht]
      simp only [hillForward]
      rw [if_pos (by simp [Mmm.Props.demo, mask])]
      simp [Mmm.Props.demo, Mmm.Props.demoParams, draw, scaleData, treat, scaleOne, scaleMedia,
        Transformers.mediaForward, Transformers.mediaScale, Adstock.hill, FreqReport.Spec.shownAt]
      left
      ring
    have hn : nTimesOutput (Mmm.Props.demo .hill)
        (FreqReport.Spec.shownAt (Mmm.Props.demo .hill).data 0 f).nMediaTimes = 2 := by
      simp [nTimesOutput, Mmm.Props.demo, FreqReport.Spec.shownAt]
    rw [hn, hv, hv]
    have hu : unit (Mmm.Props.demo .hill) (FreqReport.Spec.shownAt (Mmm.Props.demo .hill).data 0 f)
        true false 1 t = 12 := by
      simp [unit, Mmm.Props.demo, Mmm.useKpi, revenue, FreqReport.Spec.shownAt]
      norm_num
    rw [hu]
    simp [coef, draw]
    ring
  rw [key 0 (by norm_num), key 1 (by norm_num)]
  norm_num
  ring

/-- **C113, finding: a witness.** The prior curve is below the prior curve at another frequency of the
search: the prior draw is best at frequency 1, the posterior draw at 1.1. -/
theorem prior_curve_not_at_prior_optimum :
    let ctx := Mmm.Props.demo .hill
    let a : CurveTable.Args := { multipliers := some [1], usePosterior := false, gi := some [1],
                                 useOptimalFrequency := true }
    ∃ T, responseCurves ctx demoNp ⟨some [draw 1 1], some [draw 2 2]⟩ ctx.data (fun _ _ _ => 1) (6 / 5) a
        = .ok T ∧ T.multipliers[0]? = some 1 ∧
      T.outcome 0 ((Chan.rf 0).pos ctx) .mean
        < gain ctx (FreqReport.Spec.shownAt ctx.data 0 1) Metrics.Props.demoSel (.rf 0) 1 true false
          (draw 1 1) := by
  intro ctx a
  obtain ⟨T, hT⟩ := (curves_accepted_iff ctx demoNp ⟨some [draw 1 1], some [draw 2 2]⟩ ctx.data
    (fun _ _ _ => 1) (6 / 5) a).2 (by
      refine ⟨fun k hk => ?_, fun _ _ => ⟨by norm_num, rfl, rfl⟩⟩
      simp only [multipliers, a, List.mem_singleton] at hk
      subst hk
      exact ⟨by norm_num, fun _ => rfl⟩)
  have hm1 := (curves_coordinates hT (s := Metrics.Props.demoSel) Metrics.Props.demo_resolves).1 [1] rfl
  have hsl : ∀ x y : ℝ, 0 < y → ∀ p ∈ [draw x y], SlopesPos ctx p := by
    intro x y hy p hp
    rw [List.mem_singleton.1 hp]
    exact draw_slopes hy
  have hn : 0 < ctx.rf.n := by simp [ctx, Mmm.Props.demo]
  have hk : T.multipliers[0]? = some 1 := by rw [hm1]; rfl
  obtain ⟨f, hbest, hpt⟩ := curves_at_optimum (Mmm.Props.demo_wf _) rfl hn rfl hT
    (s := Metrics.Props.demoSel) Metrics.Props.demo_resolves (post := [draw 2 2]) rfl (hsl _ _ (by norm_num))
    (draws := [draw 1 1]) rfl (hsl _ _ (by norm_num))
  refine ⟨T, hT, hk, ?_⟩
  rw [(hpt (.rf 0) hn trivial 0 1 hk .mean).2 one_ne_zero]
  have hf : f 0 = 11 / 10 := by
    obtain ⟨⟨k, hk1, hk2⟩, hle⟩ := hbest 0 hn
    have hk3 : k < 2 := by
      by_contra hge
      have : (2 : ℝ) ≤ k := by exact_mod_cast (by omega : 2 ≤ k)
      rw [hk1] at hk2
      linarith
    obtain rfl | rfl : k = 0 ∨ k = 1 := by omega
    · exfalso
      have := hle 1 (by norm_num)
      rw [hk1] at this
      simp only [meanRoiAt, List.map_cons, List.map_nil, List.sum_cons, List.sum_nil, List.length_cons,
        List.length_nil, ctx, a] at this
      rw [demo_outcome (by norm_num), demo_outcome (by norm_num)] at this
      norm_num [costOf, demo_sum] at this
    · rw [hk1]
      norm_num
  have e1 : gain ctx (Results.Spec.shownAt ctx.data (some f)) Metrics.Props.demoSel (.rf 0) 1 true false
      (draw 1 1) = 78 / (11 / 10) * ((11 / 10) / (11 / 10 + 1)) := by
    rw [gain_shown (Mmm.Props.demo_wf _) (draw_slopes (by norm_num)) rfl hn, hf,
      demo_outcome (by norm_num)]
    norm_num
  have e2 : gain ctx (FreqReport.Spec.shownAt ctx.data 0 1) Metrics.Props.demoSel (.rf 0) 1 true false
      (draw 1 1) = 78 / 1 * (1 / (1 + 1)) := by
    show outcomeAt ctx ctx.data Metrics.Props.demoSel 0 1 false (draw 1 1) = _
    rw [demo_outcome (by norm_num)]
    norm_num
  simp only [Band.stat, statistic, summaryOf, List.map_cons, List.map_nil, List.sum_cons, List.sum_nil,
    List.length_cons, List.length_nil, a]
  rw [e1, e2]
  norm_num

/-- The hypotheses of the theorems are met: posterior curves of the second geo at the optimal frequency,
by reach, with the default multipliers; the channel has spend, and there are two frequencies to search. -/
example : let ctx := Mmm.Props.demo .hill
    let a : CurveTable.Args := { gi := some [1], useOptimalFrequency := true }
    WF ctx ∧ (∃ T, responseCurves ctx demoNp ⟨some [draw 1 1], some [draw 1 1, draw 2 2]⟩ ctx.data
      (fun _ _ _ => 1) (6 / 5) a = .ok T ∧ T.multipliers[5]? = some 1) ∧
    Metrics.Props.demoSel.Resolves ctx a.gi a.ti ∧ 0 < ctx.rf.n ∧
    (∀ p ∈ [draw 1 1, draw 2 2], SlopesPos ctx p) ∧
    0 < costOf Metrics.Props.demoSel (fun _ _ _ => 1) 0 ∧ (1 : ℝ) + (1 : ℕ) / 10 < 6 / 5 ∧
    (Chan.media 0).Valid ctx ∧ Paid (.media 0) := by
  intro ctx a
  obtain ⟨T, hT⟩ := (curves_accepted_iff ctx demoNp ⟨some [draw 1 1], some [draw 1 1, draw 2 2]⟩ ctx.data
    (fun _ _ _ => 1) (6 / 5) a).2 (by
      refine ⟨fun k hk => ⟨?_, fun _ => rfl⟩, fun _ _ => ⟨by norm_num, rfl, rfl⟩⟩
      simp only [multipliers, a, List.mem_map] at hk
      obtain ⟨j, -, rfl⟩ := hk
      positivity)
  have hm1 := (curves_coordinates hT (s := Metrics.Props.demoSel) Metrics.Props.demo_resolves).2.1 rfl
  refine ⟨Mmm.Props.demo_wf _, ⟨T, hT, by rw [hm1]; rfl⟩, Metrics.Props.demo_resolves,
    by simp [ctx, Mmm.Props.demo], ?_, by norm_num [costOf, demo_sum], by norm_num,
    by simp [Chan.Valid, ctx, Mmm.Props.demo], trivial⟩
  intro p hp
  rcases List.mem_cons.1 hp with rfl | hp
  · exact draw_slopes (by norm_num)
  · rw [List.mem_singleton.1 hp]
    exact draw_slopes (by norm_num)

/-- The same without the optimal frequency; at multiplier 0 only, no draws are needed. -/
example : let ctx := Mmm.Props.demo .hill
    (∃ T, responseCurves ctx demoNp ⟨none, some [draw 2 2]⟩ ctx.data (fun _ _ _ => 1) 0
      { gi := some [1] } = .ok T) ∧
    (∃ T, responseCurves ctx demoNp ⟨none, none⟩ ctx.data (fun _ _ _ => 1) 0
      { multipliers := some [0] } = .ok T) ∧
    ¬ ∃ T, responseCurves ctx demoNp ⟨none, some [draw 2 2]⟩ ctx.data (fun _ _ _ => 1) 0
      { multipliers := some [1, -1] } = .ok T := by
  intro ctx
  simp only [curves_accepted_iff]
  refine ⟨⟨fun k hk => ⟨?_, fun _ => rfl⟩, by simp⟩, by simp [multipliers], ?_⟩
  · simp only [multipliers, List.mem_map] at hk
    obtain ⟨j, -, rfl⟩ := hk
    positivity
  · intro h
    have := (h.1 (-1) (by simp [multipliers])).1
    norm_num at this

end Verif.CurveTable.Props
