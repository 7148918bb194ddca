import Verif.Spec.Metrics
import Verif.Props.Mmm
import Mathlib.Tactic.FieldSimp

/-!
# C38: ROI, marginal ROI, CPIK and the columns of the summary are consistent
-/

namespace Verif.Metrics.Props

open Verif.Mmm Verif.Mmm.Spec Verif.Selection Verif.Selection.Spec Verif.Metrics
open Verif.Metrics.Spec Finset

theorem sum_axis {s : Sel} {ctx : Ctx} {gi ti : Option (List ℕ)} (hs : s.Resolves ctx gi ti)
    (f : ℕ → ℕ → ℝ) :
    filterAggregate f ctx.nGeos ctx.nTimes gi ti true true = [[s.sum f]] := by
  have := Selection.Props.aggregate_selected s.norm s.geos s.times s.gsel s.tsel gi ti hs.geos
    hs.times f
  rw [hs.nGeos, hs.nTimes] at this
  rw [this]
  simp only [Sel.sum, Sel.timeSum, hs.nGeos, hs.nTimes]

theorem time_axis {s : Sel} {ctx : Ctx} {gi ti : Option (List ℕ)} (hs : s.Resolves ctx gi ti)
    (f : ℕ → ℕ → ℝ) :
    filterAggregate f ctx.nGeos ctx.nTimes gi ti false true
      = (axis ctx.nGeos gi).map fun g => [s.timeSum f g] := by
  rw [(Selection.Props.unaggregated_is_table f ctx.nGeos ctx.nTimes gi ti).2.1]
  classical
  obtain ⟨h1, h2⟩ := Selection.Props.time_indices_exact s.norm s.times s.tsel ti hs.times
  apply List.map_congr_left
  intro g _
  rw [← hs.nTimes, Selection.Props.sum_sorted s.times.length _ (timeSelected s.norm s.times s.tsel) h1 h2]
  rfl

theorem ratio_total {s : Sel} {ctx : Ctx} {gi ti : Option (List ℕ)} (hs : s.Resolves ctx gi ti)
    (inc x : T3) (m : ℕ) :
    ratio ctx inc (.cells x) gi ti true m
      = .ok [[s.sum (fun g t => inc g t m) / s.sum fun g t => x g t m]] := by
  simp only [ratio, sum_axis hs, List.zipWith_cons_cons, List.zipWith_nil_left]

theorem ratio_geo {s : Sel} {ctx : Ctx} {gi ti : Option (List ℕ)} (hs : s.Resolves ctx gi ti)
    (inc x : T3) (m : ℕ) :
    ratio ctx inc (.cells x) gi ti false m
      = .ok ((axis ctx.nGeos gi).map fun g =>
          [s.timeSum (fun g t => inc g t m) g / s.timeSum (fun g t => x g t m) g]) := by
  simp only [ratio, time_axis hs, Except.ok.injEq]
  generalize axis ctx.nGeos gi = l
  induction l with
  | nil => rfl
  | cons a l ih => simp

theorem inc_lift {ctx : Ctx} (hw : WF ctx) {p : Params} (hp : SlopesPos ctx p) (d : Data)
    (hd : d.nMediaTimes = ctx.nMediaTimes) {ch : Chan} (hv : ch.Valid ctx) (hpaid : Paid ch)
    (s0 s1 : ℝ) (br uk : Bool) (g t : ℕ) :
    incrementalOutcome ctx p d (fun _ => 0) s0 s1 (fun _ => true) br true uk g t (ch.pos ctx)
      = lift ctx p d ch s0 s1 br uk g t :=
  Mmm.Props.incremental_is_difference hw hp d hd hv (by rintro c rfl; exact hpaid) _ s0 s1 _ br true
    uk g t

theorem useKpi_idem (ctx : Ctx) (hw : WF ctx) (b : Bool) : useKpi ctx (useKpi ctx b) = useKpi ctx b := by
  have := hw.rev
  unfold useKpi
  cases b <;> cases h1 : ctx.kpiIsRevenue <;> cases h2 : ctx.data.revenuePerKpi <;> simp_all

theorem lift_useKpi {ctx : Ctx} (hw : WF ctx) (p : Params) (d : Data) (ch : Chan) (s0 s1 : ℝ)
    (br b : Bool) : lift ctx p d ch s0 s1 br (useKpi ctx b) = lift ctx p d ch s0 s1 br b := by
  funext g t
  simp only [lift, expectedOutcome, useKpi_idem ctx hw]

/-- **C38 (ROI).** Whenever it is computed, the ROI of a paid channel over a selection is the expected
outcome minus the expected outcome without the channel, over the selected geos and times, divided by
the channel's spend over the same geos and times. -/
theorem roi_definition {ctx : Ctx} (hw : WF ctx) {p : Params} (hp : SlopesPos ctx p) (d : Data)
    (hd : d.nMediaTimes = ctx.nMediaTimes) {ch : Chan} (hv : ch.Valid ctx) (hpaid : Paid ch)
    {s : Sel} {gi ti : Option (List ℕ)} (hs : s.Resolves ctx gi ti) (media rf : SpendDims)
    (gg tg uk : Bool) (x : T3) (r : List (List ℝ))
    (h : roi ctx media rf gg tg p d (.cells x) gi ti true uk (ch.pos ctx) = .ok r) :
    r = [[s.sum (lift ctx p d ch 0 1 true uk) / s.sum fun g t => x g t (ch.pos ctx)]] := by
  unfold roi at h
  split at h
  · cases h
  · rw [ratio_total hs] at h
    simp only [inc_lift hw hp d hd hv hpaid, Except.ok.injEq] at h
    exact h.symm

/-- **C38 (ROI by geo).** Without aggregation of geos there is one such ratio for each selected geo, in
the order of the data. -/
theorem roi_by_geo {ctx : Ctx} (hw : WF ctx) {p : Params} (hp : SlopesPos ctx p) (d : Data)
    (hd : d.nMediaTimes = ctx.nMediaTimes) {ch : Chan} (hv : ch.Valid ctx) (hpaid : Paid ch)
    {s : Sel} {gi ti : Option (List ℕ)} (hs : s.Resolves ctx gi ti) (media rf : SpendDims)
    (gg tg uk : Bool) (x : T3) (r : List (List ℝ))
    (h : roi ctx media rf gg tg p d (.cells x) gi ti false uk (ch.pos ctx) = .ok r) :
    r = (axis ctx.nGeos gi).map fun g =>
      [s.timeSum (lift ctx p d ch 0 1 true uk) g / s.timeSum (fun g t => x g t (ch.pos ctx)) g] := by
  unfold roi at h
  split at h
  · cases h
  · rw [ratio_geo hs] at h
    simp only [inc_lift hw hp d hd hv hpaid, Except.ok.injEq] at h
    exact h.symm

theorem sum_mul_right (s : Sel) (f : ℕ → ℕ → ℝ) (a : ℝ) :
    s.sum (fun g t => f g t * a) = s.sum f * a := by
  simp only [Sel.sum, Sel.timeSum, Finset.sum_mul]

/-- **C38 (marginal ROI).** The marginal ROI of a paid channel is the change of the expected outcome
when the channel's execution grows by the given fraction, divided by the same fraction of its spend. -/
theorem marginal_roi_definition {ctx : Ctx} (hw : WF ctx) {p : Params} (hp : SlopesPos ctx p) (d : Data)
    (hd : d.nMediaTimes = ctx.nMediaTimes) {ch : Chan} (hv : ch.Valid ctx) (hpaid : Paid ch)
    {s : Sel} {gi ti : Option (List ℕ)} (hs : s.Resolves ctx gi ti) (media rf : SpendDims)
    (gg tg br uk : Bool) (inc : ℝ) (x : T3) (r : List (List ℝ))
    (h : marginalRoi ctx media rf gg tg p d (.cells x) gi ti true br uk inc (ch.pos ctx) = .ok r) :
    r = [[s.sum (lift ctx p d ch 1 (1 + inc) br uk)
          / (inc * s.sum fun g t => x g t (ch.pos ctx))]] := by
  unfold marginalRoi at h
  split at h
  · cases h
  · rw [Spend.scale, ratio_total hs] at h
    simp only [inc_lift hw hp d hd hv hpaid, lift_useKpi hw, Except.ok.injEq, sum_mul_right] at h
    rw [← h, mul_comm inc]

/-- **C38 (CPIK).** The cost per incremental KPI unit of a paid channel is its spend divided by its
incremental KPI, over the selected geos and times. -/
theorem cpik_definition {ctx : Ctx} (hw : WF ctx) {p : Params} (hp : SlopesPos ctx p) (d : Data)
    (hd : d.nMediaTimes = ctx.nMediaTimes) {ch : Chan} (hv : ch.Valid ctx) (hpaid : Paid ch)
    {s : Sel} {gi ti : Option (List ℕ)} (hs : s.Resolves ctx gi ti) (media rf : SpendDims)
    (gg tg : Bool) (x : T3) (c : List (List ℝ))
    (h : cpik ctx media rf gg tg p d (.cells x) gi ti true (ch.pos ctx) = .ok c) :
    c = [[(s.sum fun g t => x g t (ch.pos ctx)) / s.sum (lift ctx p d ch 0 1 true true)]] := by
  unfold cpik at h
  split at h
  · cases h
  · rename_i r hr
    have := roi_definition hw hp d hd hv hpaid hs media rf gg tg true x r hr
    simp only [Except.ok.injEq] at h
    rw [← h, this]
    simp [one_div_div]

/-- **C38 (consistency).** For the same selection, ROI times spend is the incremental outcome, CPIK times
the incremental KPI is the spend, and CPIK is the reciprocal of the ROI in KPI units. -/
theorem roi_cpik_consistent {ctx : Ctx} (hw : WF ctx) {p : Params} (hp : SlopesPos ctx p) (d : Data)
    (hd : d.nMediaTimes = ctx.nMediaTimes) {ch : Chan} (hv : ch.Valid ctx) (hpaid : Paid ch)
    {s : Sel} {gi ti : Option (List ℕ)} (hs : s.Resolves ctx gi ti) (media rf : SpendDims)
    (gg tg uk : Bool) (x : T3) (r k c : ℝ)
    (hr : roi ctx media rf gg tg p d (.cells x) gi ti true uk (ch.pos ctx) = .ok [[r]])
    (hk : roi ctx media rf gg tg p d (.cells x) gi ti true true (ch.pos ctx) = .ok [[k]])
    (hc : cpik ctx media rf gg tg p d (.cells x) gi ti true (ch.pos ctx) = .ok [[c]])
    (hx : (s.sum fun g t => x g t (ch.pos ctx)) ≠ 0)
    (hi : s.sum (lift ctx p d ch 0 1 true true) ≠ 0) :
    r * (s.sum fun g t => x g t (ch.pos ctx)) = s.sum (lift ctx p d ch 0 1 true uk) ∧
    c * s.sum (lift ctx p d ch 0 1 true true) = (s.sum fun g t => x g t (ch.pos ctx)) ∧
    k * c = 1 := by
  have h1 := roi_definition hw hp d hd hv hpaid hs media rf gg tg uk x _ hr
  have h2 := roi_definition hw hp d hd hv hpaid hs media rf gg tg true x _ hk
  have h3 := cpik_definition hw hp d hd hv hpaid hs media rf gg tg x _ hc
  simp only [List.cons.injEq, and_true] at h1 h2 h3
  rw [h1, h2, h3]
  refine ⟨?_, ?_, ?_⟩ <;> field_simp

/-- **C38 (accepted requests).** With spend by geo and time in the data every request is accepted; with
one total per channel exactly those without selection. -/
theorem roi_accepted_iff (ctx : Ctx) (media rf : SpendDims) (gg tg : Bool) (p : Params)
    (d : Data) (spend : Spend) (gi ti : Option (List ℕ)) (ag uk : Bool) (m : ℕ)
    (hm : media.present = true ∨ rf.present = true)
    (hcells : (∃ x, spend = .cells x) ∧ (∀ s ∈ [media, rf], s.present = true →
        s.hasGeo = true ∧ s.hasTime = true)
      ∨ (∃ x, spend = .totals x) ∧ ∀ s ∈ [media, rf], s.present = true →
        s.hasGeo = false ∧ s.hasTime = false) :
    (∃ r, roi ctx media rf gg tg p d spend gi ti ag uk m = .ok r) ↔
      (∃ x, spend = .cells x) ∨ (gg = false ∧ tg = false ∧ ag = true) := by
  rcases hcells with ⟨⟨x, rfl⟩, h⟩ | ⟨⟨x, rfl⟩, h⟩
  · obtain ⟨⟨⟩, ⟨⟩, ⟨⟩⟩ := media <;> obtain ⟨⟨⟩, ⟨⟩, ⟨⟩⟩ := rf <;> simp at h hm <;>
      simp [roi, validateGranularity, ratio]
  · obtain ⟨⟨⟩, ⟨⟩, ⟨⟩⟩ := media <;> obtain ⟨⟨⟩, ⟨⟩, ⟨⟩⟩ := rf <;> simp at h hm <;>
      cases gg <;> cases tg <;> cases ag <;> simp [roi, validateGranularity, ratio]

/-- **C38 (accepted requests, in general).** A selection of geos, or results by geo, are accepted exactly
if all spend data in the model is by geo, a selection of times exactly if it is by time; and results by
geo need spend by geo in the new data. -/
theorem roi_accepted_general (ctx : Ctx) (media rf : SpendDims) (gg tg : Bool) (p : Params)
    (d : Data) (spend : Spend) (gi ti : Option (List ℕ)) (ag uk : Bool) (m : ℕ) :
    (∃ r, roi ctx media rf gg tg p d spend gi ti ag uk m = .ok r) ↔
      (gg = true ∨ ag = false → ∀ s ∈ [media, rf], s.present = true → s.hasGeo = true) ∧
      (tg = true → ∀ s ∈ [media, rf], s.present = true → s.hasTime = true) ∧
      (ag = false → ∃ x, spend = .cells x) := by
  have hv : ∀ g t a : Bool, validateGranularity media rf g t a = .ok () ↔
      (g = true ∨ a = false → ∀ s ∈ [media, rf], s.present = true → s.hasGeo = true) ∧
      (t = true → ∀ s ∈ [media, rf], s.present = true → s.hasTime = true) := by
    obtain ⟨m1, m2, m3⟩ := media
    obtain ⟨r1, r2, r3⟩ := rf
    simp only [List.forall_mem_cons, List.not_mem_nil, false_imp_iff, implies_true, and_true]
    revert m1 m2 m3 r1 r2 r3
    unfold validateGranularity
    decide +kernel
  have hr : (∃ r, ratio ctx (incrementalOutcome ctx p d (fun _ => 0) 0 1 (fun _ => true) true true uk)
      spend gi ti ag m = .ok r) ↔ (ag = false → ∃ x, spend = .cells x) := by
    cases spend <;> cases ag <;> simp [ratio]
  rw [← and_assoc, ← hv, ← hr]
  unfold roi
  cases validateGranularity media rf gg tg ag with
  | error e => simp
  | ok u => simp

/-- **C38 (a mismatch that is not refused).** `InputData` has spend by geo and time and `new_data` gives
the same spend as one total per channel.  The documentation announces an exception; the code accepts it,
also with a selection of geos, and then divides the outcome of the selected geos by the spend of all
geos: the reported ROI is too low by the share of the selected spend. -/
theorem roi_total_spend_mismatch {ctx : Ctx} {p : Params} (d : Data)
    {s : Sel} {gi ti : Option (List ℕ)} (hs : s.Resolves ctx gi ti) (x : T3) (m : ℕ) (uk tg : Bool)
    (hsel : 0 < s.sum fun g t => x g t m)
    (hall : (s.sum fun g t => x g t m)
      < ∑ g ∈ range ctx.nGeos, ∑ t ∈ range ctx.nTimes, x g t m)
    (hpos : 0 < s.sum fun g t =>
      incrementalOutcome ctx p d (fun _ => 0) 0 1 (fun _ => true) true true uk g t m) :
    ∃ right reported,
      roi ctx ⟨true, true, true⟩ ⟨false, false, false⟩ true tg p d (.cells x) gi ti true uk m
        = .ok [[right]] ∧
      roi ctx ⟨true, true, true⟩ ⟨false, false, false⟩ true tg p d
        (.totals fun m => ∑ g ∈ range ctx.nGeos, ∑ t ∈ range ctx.nTimes, x g t m) gi ti true uk m
        = .ok [[reported]] ∧
      reported < right := by
  refine ⟨(s.sum fun g t => incrementalOutcome ctx p d (fun _ => 0) 0 1 (fun _ => true) true true uk
      g t m) / s.sum fun g t => x g t m,
    (s.sum fun g t => incrementalOutcome ctx p d (fun _ => 0) 0 1 (fun _ => true) true true uk
      g t m) / ∑ g ∈ range ctx.nGeos, ∑ t ∈ range ctx.nTimes, x g t m, ?_, ?_, ?_⟩
  · simp [roi, validateGranularity, ratio_total hs]
  · simp [roi, validateGranularity, ratio, sum_axis hs]
  · exact div_lt_div_of_pos_left hpos hsel hall

/-! ### Columns of the summary -/

theorem getD_withTotal_lt (x : List ℝ) (i : ℕ) (h : i < x.length) :
    (withTotal x).getD i 0 = x.getD i 0 := by
  simp [withTotal, List.getD_eq_getElem?_getD, List.getElem?_append_left h]

theorem getD_withTotal_total (x : List ℝ) : (withTotal x).getD x.length 0 = x.sum := by
  simp [withTotal, List.getD_eq_getElem?_getD]

theorem sum_eq_range (x : List ℝ) : x.sum = ∑ i ∈ range x.length, x.getD i 0 := by
  induction x with
  | nil => simp
  | cons a l ih =>
    rw [List.sum_cons, List.length_cons, Finset.sum_range_succ', ih]
    simp [add_comm]

theorem meanOver_getD (n : ℕ) (draws : List (List ℝ)) (i : ℕ) (h : i < n) :
    (meanOver n draws).getD i 0 = (draws.map fun x => x.getD i 0).sum / draws.length := by
  simp [meanOver, List.getD_eq_getElem?_getD, h]

theorem sum_map_div {α : Type} (l : List α) (f : α → ℝ) (a : ℝ) :
    (l.map fun x => f x / a).sum = (l.map f).sum / a := by
  simp only [div_eq_mul_inv]
  exact List.sum_map_mul_right _ _ _

theorem sum_map_sum {α : Type} (l : List α) (n : ℕ) (f : ℕ → α → ℝ) :
    ∑ i ∈ range n, (l.map (f i)).sum = (l.map fun x => ∑ i ∈ range n, f i x).sum := by
  induction l with
  | nil => simp
  | cons a l ih => simp [Finset.sum_add_distrib, ih]

/-- **C38 (total).** In the summary the incremental outcome of all channels is the sum of the channels',
for the mean over draws as for each draw. -/
theorem summary_total (n : ℕ) (inc : List (List ℝ)) (hn : ∀ x ∈ inc, x.length = n) :
    (summaryIncremental n inc).getD n 0 = ∑ i ∈ range n, (summaryIncremental n inc).getD i 0 := by
  unfold summaryIncremental
  rw [meanOver_getD _ _ _ (by omega)]
  rw [Finset.sum_congr rfl fun i hi => meanOver_getD (n + 1) _ i (by rw [mem_range] at hi; omega)]
  rw [← Finset.sum_div, sum_map_sum]
  congr 2
  simp only [List.map_map]
  apply List.map_congr_left
  intro x hx
  have hl := hn x hx
  simp only [Function.comp]
  rw [show n = x.length from hl.symm, getD_withTotal_total, sum_eq_range]
  refine Finset.sum_congr rfl fun i hi => (getD_withTotal_lt x i (mem_range.1 hi)).symm

theorem length_withTotal (x : List ℝ) : (withTotal x).length = x.length + 1 := by simp [withTotal]

theorem getD_zipWith_div (a b : List ℝ) (i : ℕ) (ha : i < a.length) (hb : i < b.length) :
    (List.zipWith (· / ·) a b).getD i 0 = a.getD i 0 / b.getD i 0 := by
  simp [List.getD_eq_getElem?_getD, ha, hb]

/-- **C38 (ROI of the summary).** For every channel and for the total, mean ROI times spend is the mean
incremental outcome. -/
theorem summary_roi_times_spend (n : ℕ) (inc : List (List ℝ)) (hn : ∀ x ∈ inc, x.length = n)
    (spend : List ℝ) (hs : spend.length = n) (i : ℕ) (hi : i ≤ n)
    (h0 : (withTotal spend).getD i 0 ≠ 0) :
    (summaryRoi n inc spend).getD i 0 * (withTotal spend).getD i 0
      = (summaryIncremental n inc).getD i 0 := by
  unfold summaryRoi summaryIncremental
  rw [meanOver_getD _ _ _ (by omega), meanOver_getD _ _ _ (by omega)]
  simp only [List.length_map, List.map_map]
  rw [div_mul_eq_mul_div, ← List.sum_map_mul_right]
  congr 2
  apply List.map_congr_left
  intro x hx
  simp only [Function.comp]
  have h1 := length_withTotal x
  have h2 := length_withTotal spend
  rw [getD_zipWith_div _ _ _ (by rw [h1, hn x hx]; omega) (by rw [h2, hs]; omega)]
  field_simp

/-- **C38 (CPIK of the summary).** In every draw, for every channel and the total, the CPIK of the summary
is the reciprocal of the incremental KPI per unit of spend. -/
theorem summary_cpik_reciprocal (inc spend : List ℝ) (h : inc.length = spend.length) (i : ℕ)
    (hi : i ≤ inc.length) :
    (summaryCpikDraw inc spend).getD i 0
      = 1 / ((withTotal inc).getD i 0 / (withTotal spend).getD i 0) := by
  unfold summaryCpikDraw
  rw [getD_zipWith_div _ _ _ (by rw [length_withTotal]; omega) (by rw [length_withTotal]; omega),
    one_div_div]

/-- **C38 (percent of spend).** The percentages of the channels add up to the percentage of the total,
which is 100. -/
theorem pct_of_spend_sums (spend : List ℝ) (h : spend.sum ≠ 0) :
    ∑ i ∈ range spend.length, (pctOfTotal spend).getD i 0 = 100 ∧
    (pctOfTotal spend).getD spend.length 0 = 100 := by
  have e : ∀ i ≤ spend.length, (pctOfTotal spend).getD i 0
      = (withTotal spend).getD i 0 / spend.sum * 100 := by
    intro i hi
    have : i < (withTotal spend).length := by rw [length_withTotal]; omega
    simp [pctOfTotal, List.getD_eq_getElem?_getD, this]
  constructor
  · rw [Finset.sum_congr rfl fun i hi => (by
      rw [e i (mem_range.1 hi).le, getD_withTotal_lt _ _ (mem_range.1 hi)] :
      (pctOfTotal spend).getD i 0 = spend.getD i 0 / spend.sum * 100)]
    rw [← Finset.sum_mul, ← Finset.sum_div, ← sum_eq_range, div_self h, one_mul]
  · rw [e _ le_rfl, getD_withTotal_total, div_self h, one_mul]

/-- **C38 (cost per mille).** Impressions times CPM over 1000 is the spend. -/
theorem cpm_times_impressions (spend impr : List ℝ) (h : spend.length = impr.length) (i : ℕ)
    (hi : i ≤ spend.length) (h0 : (withTotal impr).getD i 0 ≠ 0) :
    (cpm spend impr).getD i 0 * (withTotal impr).getD i 0 / 1000 = (withTotal spend).getD i 0 := by
  have h1 : i < (withTotal spend).length := by rw [length_withTotal]; omega
  have h2 : i < (withTotal impr).length := by rw [length_withTotal]; omega
  have e : (cpm spend impr).getD i 0
      = (withTotal spend).getD i 0 / (withTotal impr).getD i 0 * 1000 := by
    unfold cpm
    rw [← getD_zipWith_div _ _ _ h1 h2]
    simp [List.getD_eq_getElem?_getD, h1, h2]
  rw [e]
  field_simp

theorem contributions_sum (n : ℕ) {D : Type} (draws : List D) (inc : D → List ℝ)
    (baseline expected : D → ℝ) (hn : ∀ x, (inc x).length = n)
    (hdec : ∀ x ∈ draws, expected x = baseline x + (inc x).sum)
    (h0 : (draws.map expected).sum ≠ 0) :
    let pct := pctOfContribution n (draws.map inc) (draws.map expected)
    pct.getD n 0 = ∑ i ∈ range n, pct.getD i 0 ∧
    baselinePctOfContribution (draws.map baseline) (draws.map expected)
      + ∑ i ∈ range n, pct.getD i 0 = 100 := by
  intro pct
  have hne : draws ≠ [] := by rintro rfl; simp at h0
  have hlen : (draws.length : ℝ) ≠ 0 := by
    have := List.length_pos_iff.2 hne
    positivity
  set M := (draws.map expected).sum / (draws.length : ℝ) with hM
  have hM0 : M ≠ 0 := div_ne_zero h0 hlen
  have e : ∀ i ≤ n, pct.getD i 0
      = (draws.map fun x => (withTotal (inc x)).getD i 0).sum / M * 100 / draws.length := by
    intro i hi
    simp only [pct, pctOfContribution]
    rw [meanOver_getD _ _ _ (by omega)]
    simp only [List.map_map, List.length_map, ← hM]
    rw [show (draws.map fun x => (withTotal (inc x)).getD i 0).sum / M * 100
      = (draws.map fun x => (withTotal (inc x)).getD i 0 / M * 100).sum by
        rw [List.sum_map_mul_right, sum_map_div]]
    congr 2
    apply List.map_congr_left
    intro x _
    have : i < (withTotal (inc x)).length := by rw [length_withTotal, hn]; omega
    simp [List.getD_eq_getElem?_getD, this]
  have esum : ∑ i ∈ range n, pct.getD i 0
      = (draws.map fun x => (inc x).sum).sum / M * 100 / draws.length := by
    rw [Finset.sum_congr rfl fun i hi => e i (mem_range.1 hi).le]
    rw [← Finset.sum_div, ← Finset.sum_mul, ← Finset.sum_div, sum_map_sum]
    congr 4
    apply List.map_congr_left
    intro x _
    rw [sum_eq_range, hn]
    exact Finset.sum_congr rfl fun i hi =>
      getD_withTotal_lt _ _ (by rw [hn]; exact mem_range.1 hi)
  have etot : pct.getD n 0 = (draws.map fun x => (inc x).sum).sum / M * 100 / draws.length := by
    rw [e n le_rfl]
    congr 4
    apply List.map_congr_left
    intro x _
    rw [← hn x, getD_withTotal_total]
  refine ⟨etot.trans esum.symm, ?_⟩
  rw [esum]
  have eb : baselinePctOfContribution (draws.map baseline) (draws.map expected)
      = (draws.map baseline).sum / M * 100 / draws.length := by
    simp only [baselinePctOfContribution, List.length_map, ← hM]
    rw [List.sum_map_mul_right, sum_map_div, List.map_id']
  have hsum : (draws.map expected).sum = (draws.map baseline).sum
      + (draws.map fun x => (inc x).sum).sum := by
    rw [← List.sum_map_add]
    congr 1
    exact List.map_congr_left hdec
  rw [eb, ← add_div, ← add_mul, ← add_div, ← hsum, hM]
  field_simp

/-- **C38 (percent of contribution).** For every list of draws and every selection: the mean percentage of
contribution of all channels is the sum of those of the channels, and with the one of the baseline
(`baseline_summary_metrics`) they make 100 percent. -/
theorem percent_of_contribution {ctx : Ctx} (hw : WF ctx) (draws : List Params)
    (hp : ∀ p ∈ draws, SlopesPos ctx p) (b : ℕ → ℝ) (uk : Bool) {s : Sel}
    {gi ti : Option (List ℕ)} (hs : s.Resolves ctx gi ti)
    (h0 : (draws.map fun p => s.sum (expectedOutcome ctx p ctx.data true uk)).sum ≠ 0) :
    let n := nMediaLike ctx + ctx.nNonMedia
    let inc := fun p => (List.range n).map fun m => s.sum fun g t =>
      incrementalOutcome ctx p ctx.data b 0 1 (fun _ => true) true true uk g t m
    let expected := draws.map fun p => s.sum (expectedOutcome ctx p ctx.data true uk)
    let baseline := draws.map fun p => s.sum (expectedOutcome ctx p (baselineData ctx b) true uk)
    let pct := pctOfContribution n (draws.map inc) expected
    pct.getD n 0 = ∑ i ∈ range n, pct.getD i 0 ∧
    baselinePctOfContribution baseline expected + ∑ i ∈ range n, pct.getD i 0 = 100 := by
  intro n inc expected baseline pct
  refine contributions_sum n draws inc _ _ (by intro x; simp [inc]) (fun p hpd => ?_) h0
  obtain ⟨base, i, h1, h2, h3⟩ := Mmm.Props.aggregated_outcome_decomposes hw (hp p hpd) ctx.data
    hw.times rfl rfl b true true uk gi ti
  rw [sum_axis hs] at h1 h3
  simp only [sum_axis hs, List.cons.injEq, and_true] at h1 h2 h3
  rw [h3, h1]
  congr 1
  rw [sum_eq_range]
  simp only [inc, List.length_map, List.length_range]
  refine Finset.sum_congr rfl fun m hm => ?_
  rw [← h2 m]
  simp [List.getD_eq_getElem?_getD, mem_range.1 hm]

/-! ### Concrete cases -/

/-- A selection of the second geo of `demo`. -/
def demoSel : Sel :=
  ⟨some, ["a", "b"], ["2024-01-01", "2024-01-08"], some ["b"], none⟩

theorem demo_resolves : demoSel.Resolves (Mmm.Props.demo .hill) (some [1]) none :=
  ⟨rfl, rfl, by decide +kernel, rfl⟩

/-- The hypotheses of the theorems are met: the selection resolves, the channel is a paid one, requests
are accepted. -/
example : demoSel.Resolves (Mmm.Props.demo .hill) (some [1]) none ∧ WF (Mmm.Props.demo .hill) ∧
    SlopesPos (Mmm.Props.demo .hill) (Mmm.Props.demoParams 1) ∧
    (Chan.media 0).Valid (Mmm.Props.demo .hill) ∧ Paid (.media 0) ∧
    (∃ r, roi (Mmm.Props.demo .hill) ⟨true, true, true⟩ ⟨true, true, true⟩ true false
      (Mmm.Props.demoParams 1) (Mmm.Props.demo .hill).data (.cells fun _ _ _ => 1) (some [1]) none true
      false 0 = .ok r) ∧
    (demoSel.sum fun _ _ => 1) = 2 := by
  refine ⟨demo_resolves, Mmm.Props.demo_wf _, Mmm.Props.demo_slopes _, by simp [Chan.Valid, Mmm.Props.demo],
    trivial, ⟨_, rfl⟩, ?_⟩
  have := sum_axis demo_resolves fun _ _ => (1 : ℝ)
  simp [filterAggregate, axis, Mmm.Props.demo] at this
  linarith

/-- Two draws, two channels: the columns of the summary. -/
example : summaryIncremental 2 [[1, 2], [3, 4]] = [2, 3, 5] ∧
    summaryRoi 2 [[1, 2], [3, 4]] [1, 3] = [2, 1, 5 / 4] ∧ pctOfTotal [1, 3] = [25, 75, 100] := by
  refine ⟨?_, ?_, ?_⟩ <;>
    norm_num [summaryIncremental, summaryRoi, pctOfTotal, meanOver, withTotal, List.range_succ]

end Verif.Metrics.Props
