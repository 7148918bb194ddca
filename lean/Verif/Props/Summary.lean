import Verif.Spec.Summary
import Verif.Lemmas.Results
import Mathlib.Tactic

/-!
# C79: the summary table and the baseline table
-/

namespace Verif.Summary.Props

open Verif.Transformers Verif.Mmm Verif.Mmm.Spec Verif.Selection Verif.Selection.Spec Verif.Metrics
open Verif.Metrics.Spec Verif.Curves Verif.Results Verif.Summary Verif.Summary.Spec

theorem stat_eq (np : Np) (level : ℝ) (st : Stat) (l : List ℝ) :
    stat np level st l = summaryOf np level l st := by
  cases st <;> rfl

theorem statN_some (np : Np) (level : ℝ) (st : Stat) {α : Type} (l : List α) (f : α → Option ℝ)
    (h : α → ℝ) (hf : ∀ p ∈ l, f p = some (h p)) :
    statN np level st (l.map f) = some (summaryOf np level (l.map h) st) := by
  unfold statN
  rw [if_neg, ← stat_eq, List.map_map]
  · congr 2
    refine List.map_congr_left fun p hp => ?_
    simp [hf p hp]
  · simp only [List.any_map, List.any_eq_true, not_exists, not_and]
    intro p hp
    simp [hf p hp]

theorem quot_some {a b : ℝ} (h : b ≠ 0) : quot a b = some (a / b) := by
  unfold quot
  rw [if_neg h]

/-! ### Cells -/

theorem sorted_eq {l l' : List ℕ} (h : l.Pairwise (· < ·)) (h' : l'.Pairwise (· < ·))
    (hm : ∀ x, x ∈ l ↔ x ∈ l') : l = l' := by
  have hn : l.Nodup := h.imp fun h => h.ne
  have hn' : l'.Nodup := h'.imp fun h => h.ne
  exact List.Perm.eq_of_pairwise (le := (· < ·)) (fun a b _ _ h1 h2 => absurd h1 (by omega)) h h'
    ((List.perm_ext_iff_of_nodup hn hn').2 hm)

theorem geo_axis {s : Sel} {ctx : Ctx} {gi ti : Option (List ℕ)} (hs : s.Resolves ctx gi ti) :
    axis ctx.nGeos gi = geoList s := by
  classical
  obtain ⟨h1, h2⟩ := Selection.Props.geo_indices_exact s.geos s.gsel gi hs.geos
  rw [hs.nGeos] at h1 h2
  refine sorted_eq h1 (List.pairwise_lt_range.filter _) fun x => ?_
  rw [h2]
  simp [geoList, hs.nGeos]

theorem time_axis {s : Sel} {ctx : Ctx} {gi ti : Option (List ℕ)} (hs : s.Resolves ctx gi ti) :
    axis ctx.nTimes ti = timeList s := by
  classical
  obtain ⟨h1, h2⟩ := Selection.Props.time_indices_exact s.norm s.times s.tsel ti hs.times
  rw [hs.nTimes] at h1 h2
  refine sorted_eq h1 (List.pairwise_lt_range.filter _) fun x => ?_
  rw [h2]
  simp [timeList, hs.nTimes]

/-- A cell holds the sum over what it covers. -/
theorem cell_over {s : Sel} {ctx : Ctx} {a : Args} (hs : s.Resolves ctx a.gi a.ti) {i j : ℕ}
    (h : InTable s a i j) (x : ℕ → ℕ → ℝ) : cell ctx ctx.nTimes a i j x = cellSum s a i j x := by
  obtain ⟨hi, hj⟩ := h
  obtain ⟨t1, t2, t3⟩ := Selection.Props.unaggregated_is_table x ctx.nGeos ctx.nTimes a.gi a.ti
  unfold cell cellSum part
  unfold parts at hi hj
  cases hg : a.aggregateGeos <;> cases ht : a.aggregateTimes <;> simp only [hg, ht] at hi hj ⊢
  · rw [t1, geo_axis hs, time_axis hs]
    simp only [Bool.false_eq_true, if_false] at hi hj
    simp [List.getD_eq_getElem?_getD, hi, hj]
  · rw [t2, geo_axis hs, time_axis hs]
    simp only [Bool.false_eq_true, if_false, if_true] at hi hj
    obtain rfl : j = 0 := by omega
    simp [List.getD_eq_getElem?_getD, hi]
  · rw [t3, geo_axis hs, time_axis hs]
    simp only [Bool.false_eq_true, if_false, if_true] at hi hj
    obtain rfl : i = 0 := by omega
    simp [List.getD_eq_getElem?_getD, hj]
  · rw [Selection.Props.aggregate_all, geo_axis hs, time_axis hs]
    simp only [if_true] at hi hj
    obtain rfl : i = 0 := by omega
    obtain rfl : j = 0 := by omega
    simp

/-! ### Rows -/

theorem channels_pos (ctx : Ctx) (a : Args) :
    (channels ctx a).map (·.pos ctx) = List.range (nChannels ctx a) := by
  unfold channels nChannels
  cases a.includeNonPaid
  · simp only [Bool.false_eq_true, if_false, List.append_nil, List.map_append, List.map_map]
    rw [nPaid, List.range_add]
    congr 1
    exact List.map_id _
  · simp only [if_true, List.map_append, List.map_map]
    rw [nMediaLike, List.range_add, List.range_add, List.range_add, List.range_add]
    simp only [List.append_assoc]
    congr 1
    exact List.map_id _

theorem channels_length (ctx : Ctx) (a : Args) : (channels ctx a).length = nChannels ctx a := by
  have := congrArg List.length (channels_pos ctx a)
  simpa using this

theorem pos_lt {ctx : Ctx} {a : Args} {ch : Chan} (h : ch ∈ channels ctx a) :
    ch.pos ctx < nChannels ctx a := by
  have : ch.pos ctx ∈ (channels ctx a).map (·.pos ctx) := List.mem_map_of_mem h
  rw [channels_pos] at this
  exact List.mem_range.1 this

theorem valid_of_mem {ctx : Ctx} {a : Args} {ch : Chan} (h : ch ∈ channels ctx a) :
    ch.Valid ctx ∧ (a.includeNonPaid = false → Paid ch) := by
  unfold channels at h
  cases ha : a.includeNonPaid <;> simp only [ha, Bool.false_eq_true, if_false, if_true, List.mem_append,
    List.mem_map, List.mem_range, List.append_nil] at h
  · rcases h with ⟨c, hc, rfl⟩ | ⟨c, hc, rfl⟩ <;> exact ⟨hc, fun _ => trivial⟩
  · rcases h with (⟨c, hc, rfl⟩ | ⟨c, hc, rfl⟩) | (⟨c, hc, rfl⟩ | ⟨c, hc, rfl⟩) | ⟨c, hc, rfl⟩ <;>
      exact ⟨hc, by simp⟩

/-- An entry of a list with its total. -/
theorem row_getD {ctx : Ctx} {a : Args} (F : ℕ → ℝ) {r : Row} (hr : r.Valid ctx a) :
    (withTotal ((List.range (nChannels ctx a)).map F)).getD (r.pos ctx a) 0
      = r.sum ctx a fun ch => F (ch.pos ctx) := by
  cases r with
  | one ch =>
    have := pos_lt hr
    simp only [Row.pos, Row.sum]
    rw [Metrics.Props.getD_withTotal_lt _ _ (by simpa using this)]
    simp [List.getD_eq_getElem?_getD, this]
  | all =>
    simp only [Row.pos, Row.sum, channels_length]
    have h := Metrics.Props.getD_withTotal_total ((List.range (nChannels ctx a)).map F)
    rw [List.length_map, List.length_range] at h
    rw [h, ← channels_pos, List.map_map]
    rfl

theorem row_sum_congr {ctx : Ctx} {a : Args} {f h : Chan → ℝ} (hf : ∀ ch ∈ channels ctx a, f ch = h ch)
    {r : Row} (hr : r.Valid ctx a) : r.sum ctx a f = r.sum ctx a h := by
  cases r with
  | one ch => exact hf ch hr
  | all => exact congrArg List.sum (List.map_congr_left hf)

theorem inc_effect {ctx : Ctx} (hw : WF ctx) {p : Params} (hp : SlopesPos ctx p) {d : Data}
    (hd : d.nMediaTimes = ctx.nMediaTimes) {ch : Chan} (hv : ch.Valid ctx) (b : ℕ → ℝ) (uk : Bool)
    (g t : ℕ) :
    incrementalOutcome ctx p d b 0 1 (fun _ => true) true true uk g t (ch.pos ctx)
      = effect ctx p d b uk ch g t := by
  cases ch with
  | nonMedia c => exact Mmm.Props.incremental_nonmedia_is_difference hw p d hv b 0 1 _ true true uk g t
  | media c | rf c | organicMedia c | organicRf c =>
    exact Mmm.Props.incremental_is_difference hw hp d hd hv (by simp) b 0 1 _ true true uk g t

theorem effect_useKpi {ctx : Ctx} (hw : WF ctx) (p : Params) (d : Data) (b : ℕ → ℝ) (uk : Bool)
    (ch : Chan) : effect ctx p d b (Mmm.useKpi ctx uk) ch = effect ctx p d b uk ch := by
  cases ch with
  | nonMedia c =>
    funext g t
    simp only [effect, expectedOutcome, Metrics.Props.useKpi_idem ctx hw]
  | media c | rf c | organicMedia c | organicRf c => exact Metrics.Props.lift_useKpi hw p d _ 0 1 true uk

theorem times_out {ctx : Ctx} {d : Data} (hd : d.nMediaTimes = ctx.nMediaTimes) :
    nTimesOutput ctx d.nMediaTimes = ctx.nTimes := by
  unfold nTimesOutput
  rw [if_neg (by simp [hd])]

/-- The aggregated incremental outcome of a row. -/
theorem inc_row {ctx : Ctx} (hw : WF ctx) {p : Params} (hp : SlopesPos ctx p) {d : Data}
    (hd : d.nMediaTimes = ctx.nMediaTimes) {s : Sel} {a : Args} (hs : s.Resolves ctx a.gi a.ti)
    {i j : ℕ} (hij : InTable s a i j) (uk : Bool) {r : Row} (hr : r.Valid ctx a) :
    (incAggregate ctx d a (nChannels ctx a) uk true 0 1 i j p).getD (r.pos ctx a) 0
      = r.sum ctx a fun ch => cellSum s a i j (effect ctx p d a.baseline uk ch) := by
  unfold incAggregate
  rw [row_getD _ hr]
  refine row_sum_congr (fun ch hch => ?_) hr
  rw [times_out hd, cell_over hs hij]
  congr 1
  funext g t
  rw [inc_effect hw hp hd (valid_of_mem hch).1, effect_useKpi hw]

theorem useKpi_twice {ctx : Ctx} (hw : WF ctx) (d : Data) (a : Args) (n : ℕ) (uk br : Bool) (s0 s1 : ℝ)
    (i j : ℕ) (p : Params) :
    incAggregate ctx d a n (Mmm.useKpi ctx uk) br s0 s1 i j p = incAggregate ctx d a n uk br s0 s1 i j p := by
  unfold incAggregate
  rw [Metrics.Props.useKpi_idem ctx hw]

/-! ### The table -/

/-- **C79 (accepted requests).** A summary is given exactly if both the prior and the posterior have been
sampled, the increase for the marginal ROI is positive, and, when a frequency per channel is passed and
non-paid channels are included, the organic reach and frequency channels are as many as the paid ones (or
there are none, or there is a single paid one). -/
theorem summary_accepted_iff (ctx : Ctx) (np : Np) (s : Samples) (d : Data) (spend : T3) (a : Args) :
    (∃ T, summaryMetrics ctx np s d spend a = .ok T) ↔
      s.prior.isSome ∧ s.posterior.isSome ∧ 0 < a.increase ∧
      (a.includeNonPaid = true → a.opt.isSome → ctx.organicRf.n = 0 ∨ ctx.rf.n = 1 ∨
        ctx.rf.n = ctx.organicRf.n) := by
  unfold summaryMetrics
  by_cases h : a.includeNonPaid = true ∧ a.opt.isSome = true ∧ organicShapeOk ctx = false
  · rw [if_pos h]
    simp only [reduceCtorEq, exists_false, false_iff]
    rintro ⟨-, -, -, h4⟩
    have := h.2.2
    unfold organicShapeOk at this
    exact (decide_eq_false_iff_not.1 this) (h4 h.1 h.2.1)
  · rw [if_neg h]
    have h4 : a.includeNonPaid = true → a.opt.isSome = true → ctx.organicRf.n = 0 ∨ ctx.rf.n = 1 ∨
        ctx.rf.n = ctx.organicRf.n := by
      intro h1 h2
      by_contra h3
      exact h ⟨h1, h2, by unfold organicShapeOk; exact decide_eq_false h3⟩
    cases e1 : s.prior with
    | none => simp
    | some prior =>
      cases e2 : s.posterior with
      | none => simp
      | some posterior =>
        have hf := Curves.Props.factors_accepted_iff 1 (1 + a.increase)
        cases e : checkFactors 1 (1 + a.increase) with
        | error e' =>
          rw [e] at hf
          simp only [reduceCtorEq, false_iff] at hf
          simp only [reduceCtorEq, exists_false, Option.isSome_some, true_and, false_iff]
          rintro ⟨h5, -⟩
          exact hf ⟨by norm_num, by linarith⟩
        | ok u =>
          have hf' := hf.1 e
          simp only [Except.ok.injEq, exists_eq', Option.isSome_some, true_and, true_iff]
          exact ⟨by linarith [hf'.2], h4⟩

theorem table_eq {ctx : Ctx} {np : Np} {s : Samples} {d : Data} {spend : T3} {a : Args} {T : Table}
    (h : summaryMetrics ctx np s d spend a = .ok T) :
    (∀ v, (T v).isSome ↔ v ∈ reported a (decide (d.nMediaTimes ≠ ctx.nMediaTimes))) ∧
    ∀ v x, T v = some x → ∀ dist draws, s.group dist = some draws → ∀ st i j m,
      x dist st i j m = value ctx np d spend a draws st i j m v := by
  unfold summaryMetrics at h
  by_cases hs : a.includeNonPaid = true ∧ a.opt.isSome = true ∧ organicShapeOk ctx = false
  · rw [if_pos hs] at h
    cases h
  · rw [if_neg hs] at h
    cases e1 : s.prior with
    | none => simp [e1] at h
    | some prior =>
      cases e2 : s.posterior with
      | none => simp [e1, e2] at h
      | some posterior =>
        simp only [e1, e2] at h
        cases e : checkFactors 1 (1 + a.increase) with
        | error e' => simp [e] at h
        | ok u =>
          simp only [e, Except.ok.injEq] at h
          subst h
          constructor
          · intro v
            by_cases hv : v ∈ reported a (decide (d.nMediaTimes ≠ ctx.nMediaTimes))
            · simp only [hv, if_true, Option.isSome_some]
            · simp only [hv, if_false, Option.isSome_none, Bool.false_eq_true]
          · intro v x hx dist draws hd st i j m
            by_cases hv : v ∈ reported a (decide (d.nMediaTimes ≠ ctx.nMediaTimes))
            · simp only [if_pos hv, Option.some.injEq] at hx
              subst hx
              cases dist with
              | prior =>
                simp only [Samples.group, e1, Option.some.injEq] at hd
                subst hd; rfl
              | posterior =>
                simp only [Samples.group, e2, Option.some.injEq] at hd
                subst hd; rfl
            · simp only [if_neg hv, reduceCtorEq] at hx

/-- **C79 (variables).** The incremental outcome is always reported; its percentage of the outcome unless
the new data has another number of periods; effectiveness unless the result is by time; ROI, marginal ROI
and CPIK in addition only for paid channels; spend and impressions for paid channels. -/
theorem summary_variables {ctx : Ctx} {np : Np} {s : Samples} {d : Data} {spend : T3} {a : Args}
    {T : Table} (h : summaryMetrics ctx np s d spend a = .ok T) :
    (T .incrementalOutcome).isSome ∧
    ((T .pctOfContribution).isSome ↔ d.nMediaTimes = ctx.nMediaTimes) ∧
    ((T .effectiveness).isSome ↔ a.aggregateTimes = true) ∧
    (∀ v ∈ [Var.roi, .mroi, .cpik],
      ((T v).isSome ↔ a.aggregateTimes = true ∧ a.includeNonPaid = false)) ∧
    ∀ v ∈ [Var.impressions, .pctOfImpressions, .spend, .pctOfSpend, .cpm],
      ((T v).isSome ↔ a.includeNonPaid = false) := by
  obtain ⟨h1, -⟩ := table_eq h
  simp only [h1]
  unfold reported
  by_cases hm : d.nMediaTimes = ctx.nMediaTimes <;> cases a.includeNonPaid <;>
    cases a.aggregateTimes <;> simp [hm]

/-- **C79 (incremental outcome).** In every cell, for every channel and for all channels together, and for
the prior and the posterior, the table holds the statistics over the draws of the effect of the channel on
the expected outcome, or of the sum of the effects, over the geos and times of the cell. -/
theorem summary_outcome {ctx : Ctx} (hw : WF ctx) {np : Np} {smp : Samples} {d : Data}
    (hd : d.nMediaTimes = ctx.nMediaTimes) {spend : T3} {a : Args} {T : Table}
    (h : summaryMetrics ctx np smp d spend a = .ok T) {s : Sel} (hs : s.Resolves ctx a.gi a.ti)
    {i j : ℕ} (hij : InTable s a i j) {dist : Dist} {draws : List Params}
    (hg : smp.group dist = some draws) (hp : ∀ p ∈ draws, SlopesPos ctx p) {r : Row}
    (hr : r.Valid ctx a) {x : Dist → Stat → ℕ → ℕ → ℕ → Option ℝ}
    (hx : T .incrementalOutcome = some x) (st : Stat) :
    x dist st i j (r.pos ctx a) = some (summaryOf np a.level
      (draws.map fun p => r.sum ctx a fun ch => cellSum s a i j (effect ctx p d a.baseline a.useKpi ch))
      st) := by
  rw [(table_eq h).2 _ _ hx _ _ hg]
  simp only [value, stat_eq]
  congr 2
  refine List.map_congr_left fun p hpd => ?_
  rw [useKpi_twice hw, inc_row hw (hp p hpd) hd hs hij _ hr]

theorem impr_row {ctx : Ctx} {d : Data} (hd : d.nMediaTimes = ctx.nMediaTimes) {a : Args}
    (hopt : a.opt = none) {s : Sel} (hs : s.Resolves ctx a.gi a.ti) {i j : ℕ} (hij : InTable s a i j)
    {r : Row} (hr : r.Valid ctx a) :
    (impressionsWithTotal ctx d a i j).getD (r.pos ctx a) 0
      = r.sum ctx a fun ch => cellSum s a i j (unitsOf ctx d ch) := by
  unfold impressionsWithTotal
  rw [row_getD _ hr]
  refine row_sum_congr (fun ch hch => ?_) hr
  rw [times_out hd, cell_over hs hij]
  congr 1
  funext g t
  have hv := (valid_of_mem hch).1
  cases ch <;> simp only [Chan.Valid] at hv <;>
    simp only [hopt, Option.elim_none, units, concat, Chan.pos, nMediaLike, unitsOf, hd]
  · rw [if_pos (by omega), if_pos (by omega), if_pos (by omega), if_pos (by omega)]
  · rw [if_pos (by omega), if_pos (by omega), if_pos (by omega), if_neg (by omega),
      Nat.add_sub_cancel_left]
  · rw [if_pos (by omega), if_pos (by omega), if_neg (by omega), Nat.add_sub_cancel_left]
  · rw [if_pos (by omega), if_neg (by omega), Nat.add_sub_cancel_left]
  · rw [if_neg (by omega), Nat.add_sub_cancel_left]

theorem spend_row {ctx : Ctx} {d : Data} (hd : d.nMediaTimes = ctx.nMediaTimes) {a : Args}
    (hpaid : a.includeNonPaid = false) (spend : T3) {s : Sel} (hs : s.Resolves ctx a.gi a.ti) {i j : ℕ}
    (hij : InTable s a i j) {r : Row} (hr : r.Valid ctx a) :
    (spendWithTotal ctx d spend a i j).getD (r.pos ctx a) 0
      = r.sum ctx a fun ch => cellSum s a i j fun g t => spend g t (ch.pos ctx) := by
  have hn : nPaid ctx = nChannels ctx a := by unfold nChannels; rw [hpaid]; rfl
  unfold spendWithTotal
  rw [hn, row_getD _ hr]
  refine row_sum_congr (fun ch _ => ?_) hr
  rw [times_out hd, cell_over hs hij]

/-- **C79 (spend and impressions).** For every row and cell the table holds the spend and the media units
over the geos and times of the cell, their percentages of all channels, and the spend per thousand
units. -/
theorem summary_spend {ctx : Ctx} {np : Np} {smp : Samples} {d : Data}
    (hd : d.nMediaTimes = ctx.nMediaTimes) {spend : T3} {a : Args} (hopt : a.opt = none) {T : Table}
    (h : summaryMetrics ctx np smp d spend a = .ok T) {s : Sel} (hs : s.Resolves ctx a.gi a.ti)
    {i j : ℕ} (hij : InTable s a i j) {r : Row} (hr : r.Valid ctx a)
    {v : Var} {x : Dist → Stat → ℕ → ℕ → ℕ → Option ℝ} (hx : T v = some x) (dist : Dist) (st : Stat) :
    let units := fun r : Row => r.sum ctx a fun ch => cellSum s a i j (unitsOf ctx d ch)
    let cost := fun r : Row => r.sum ctx a fun ch => cellSum s a i j fun g t => spend g t (ch.pos ctx)
    (v = .impressions → x dist st i j (r.pos ctx a) = some (units r)) ∧
    (v = .spend → x dist st i j (r.pos ctx a) = some (cost r)) ∧
    (v = .pctOfImpressions → units .all ≠ 0 →
      x dist st i j (r.pos ctx a) = some (units r / units .all * 100)) ∧
    (v = .pctOfSpend → cost .all ≠ 0 → x dist st i j (r.pos ctx a) = some (cost r / cost .all * 100)) ∧
    (v = .cpm → units r ≠ 0 → x dist st i j (r.pos ctx a) = some (cost r / units r * 1000)) := by
  intro units cost
  have hac := (summary_accepted_iff ctx np smp d spend a).1 ⟨T, h⟩
  obtain ⟨draws, hg⟩ : ∃ draws, smp.group dist = some draws := by
    cases dist with
    | prior => exact Option.isSome_iff_exists.1 hac.1
    | posterior => exact Option.isSome_iff_exists.1 hac.2.1
  have hval := (table_eq h).2 _ _ hx _ _ hg st i j (r.pos ctx a)
  have hsv := (summary_variables h).2.2.2.2
  have hall : (Row.all).Valid ctx a := trivial
  have hpos : (Row.all).pos ctx a = nChannels ctx a := channels_length ctx a
  have h1 := fun r' hr' => impr_row (r := r') hd hopt hs hij hr'
  have h2 := fun (hp : a.includeNonPaid = false) r' hr' =>
    spend_row (r := r') hd hp spend hs hij hr'
  have hi1 := h1 r hr
  have hi2 := h1 .all hall
  rw [hpos] at hi2
  refine ⟨?_, ?_, ?_, ?_, ?_⟩
  · rintro rfl
    rw [hval]
    simp only [value, hi1, units]
  · rintro rfl
    have hp := (hsv .spend (by simp)).1 (by rw [hx]; rfl)
    rw [hval]
    simp only [value, h2 hp r hr, cost]
  · rintro rfl h0
    rw [hval]
    simp only [value, hi1, hi2]
    rw [quot_some h0]
    rfl
  · rintro rfl h0
    have hp := (hsv .pctOfSpend (by simp)).1 (by rw [hx]; rfl)
    have h3 := h2 hp .all hall
    rw [hpos] at h3
    rw [hval]
    simp only [value, h2 hp r hr, h3]
    rw [quot_some h0]
    rfl
  · rintro rfl h0
    have hp := (hsv .cpm (by simp)).1 (by rw [hx]; rfl)
    rw [hval]
    simp only [value, h2 hp r hr, hi1]
    rw [quot_some h0]
    rfl

/-- **C79 (ROI and cost per KPI unit).** For every row and cell with spend, the ROI is the statistics over
the draws of the incremental outcome per unit of spend; for every row with an incremental KPI in every
draw, the CPIK is that of the spend per unit of incremental KPI, also when the table is in revenue. -/
theorem summary_roi_cpik {ctx : Ctx} (hw : WF ctx) {np : Np} {smp : Samples} {d : Data}
    (hd : d.nMediaTimes = ctx.nMediaTimes) {spend : T3} {a : Args} {T : Table}
    (h : summaryMetrics ctx np smp d spend a = .ok T) {s : Sel} (hs : s.Resolves ctx a.gi a.ti)
    {i j : ℕ} (hij : InTable s a i j) {dist : Dist} {draws : List Params}
    (hg : smp.group dist = some draws) (hp : ∀ p ∈ draws, SlopesPos ctx p) {r : Row}
    (hr : r.Valid ctx a) {v : Var} {x : Dist → Stat → ℕ → ℕ → ℕ → Option ℝ} (hx : T v = some x)
    (st : Stat) :
    let outcome := fun (uk : Bool) (p : Params) => r.sum ctx a fun ch =>
      cellSum s a i j (effect ctx p d (fun _ => 0) uk ch)
    let cost := r.sum ctx a fun ch => cellSum s a i j fun g t => spend g t (ch.pos ctx)
    (v = .roi → cost ≠ 0 → x dist st i j (r.pos ctx a)
      = some (summaryOf np a.level (draws.map fun p => outcome a.useKpi p / cost) st)) ∧
    (v = .cpik → (∀ p ∈ draws, outcome true p ≠ 0) → x dist st i j (r.pos ctx a)
      = some (summaryOf np a.level (draws.map fun p => cost / outcome true p) st)) := by
  intro outcome cost
  have hval := (table_eq h).2 _ _ hx _ _ hg st i j (r.pos ctx a)
  have hsv := (summary_variables h).2.2.2.1
  have hbase : ∀ (hpd : a.includeNonPaid = false) (b : ℕ → ℝ) (uk : Bool) (p : Params),
      (r.sum ctx a fun ch => cellSum s a i j (effect ctx p d b uk ch)) = outcome uk p := by
    intro hpd b uk p
    refine row_sum_congr (fun ch hch => ?_) hr
    have := (valid_of_mem hch).2 hpd
    cases ch with
    | nonMedia c => exact this.elim
    | media c | rf c | organicMedia c | organicRf c => rfl
  constructor
  · rintro rfl h0
    have hpd := ((hsv .roi (by simp)).1 (by rw [hx]; rfl)).2
    rw [hval]
    simp only [value, statQuot]
    refine statN_some np _ st draws _ _ fun p hpp => ?_
    rw [useKpi_twice hw, inc_row hw (hp p hpp) hd hs hij _ hr, hbase hpd,
      spend_row hd hpd spend hs hij hr]
    exact quot_some h0
  · rintro rfl h0
    have hpd := ((hsv .cpik (by simp)).1 (by rw [hx]; rfl)).2
    rw [hval]
    simp only [value, statQuot]
    refine statN_some np _ st draws _ _ fun p hpp => ?_
    have hn : nPaid ctx = nChannels ctx a := by unfold nChannels; rw [hpd]; rfl
    have hinc := inc_row (a := { a with baseline := fun _ => 0 }) hw (hp p hpp) hd hs (i := i) (j := j)
      hij true (r := r) hr
    have e : (incAggregate ctx d { a with baseline := fun _ => 0 } (nPaid ctx) true true 0 1 i j p).getD
        (r.pos ctx a) 0 = outcome true p := by
      rw [hn]; exact hinc
    rw [e, spend_row hd hpd spend hs hij hr]
    exact quot_some (h0 p hpp)

/-- **C79 (effectiveness).** For every channel with media units in the cell, the effectiveness is the
statistics over the draws of the incremental outcome per media unit; for all channels together it is not
given. -/
theorem summary_effectiveness {ctx : Ctx} (hw : WF ctx) {np : Np} {smp : Samples} {d : Data}
    (hd : d.nMediaTimes = ctx.nMediaTimes) {spend : T3} {a : Args} (hopt : a.opt = none) {T : Table}
    (h : summaryMetrics ctx np smp d spend a = .ok T) {s : Sel} (hs : s.Resolves ctx a.gi a.ti)
    {i j : ℕ} (hij : InTable s a i j) {dist : Dist} {draws : List Params}
    (hg : smp.group dist = some draws) (hp : ∀ p ∈ draws, SlopesPos ctx p)
    {x : Dist → Stat → ℕ → ℕ → ℕ → Option ℝ} (hx : T .effectiveness = some x) (st : Stat) :
    (∀ ch ∈ channels ctx a, cellSum s a i j (unitsOf ctx d ch) ≠ 0 → x dist st i j (ch.pos ctx)
      = some (summaryOf np a.level (draws.map fun p =>
          cellSum s a i j (effect ctx p d a.baseline a.useKpi ch)
            / cellSum s a i j (unitsOf ctx d ch)) st)) ∧
    x dist st i j (Row.all.pos ctx a) = none := by
  have hval := (table_eq h).2 _ _ hx _ _ hg st i j
  constructor
  · intro ch hch h0
    have hr : (Row.one ch).Valid ctx a := hch
    have hlt := pos_lt hch
    rw [hval]
    simp only [value, maskTotal, statQuot]
    rw [if_neg (by omega)]
    refine statN_some np _ st draws _ _ fun p hpp => ?_
    have h1 := inc_row hw (hp p hpp) hd hs hij a.useKpi hr
    have h2 := impr_row hd hopt hs hij hr
    simp only [Row.pos, Row.sum] at h1 h2
    rw [useKpi_twice hw, h1, h2]
    exact quot_some h0
  · rw [hval]
    simp only [value, maskTotal]
    rw [if_pos (show Row.all.pos ctx a = nChannels ctx a from channels_length ctx a)]

/-- **C79 (marginal ROI).** For every channel with spend in the cell, the marginal ROI is the statistics
over the draws of the outcome of the given relative increase of its execution (by reach or by frequency),
per unit of the same increase of its spend; for all channels together it is not given. -/
theorem summary_mroi {ctx : Ctx} (hw : WF ctx) {np : Np} {smp : Samples} {d : Data}
    (hd : d.nMediaTimes = ctx.nMediaTimes) {spend : T3} {a : Args} {T : Table}
    (h : summaryMetrics ctx np smp d spend a = .ok T) {s : Sel} (hs : s.Resolves ctx a.gi a.ti)
    {i j : ℕ} (hij : InTable s a i j) {dist : Dist} {draws : List Params}
    (hg : smp.group dist = some draws) (hp : ∀ p ∈ draws, SlopesPos ctx p)
    {x : Dist → Stat → ℕ → ℕ → ℕ → Option ℝ} (hx : T .mroi = some x) (st : Stat) :
    (∀ ch ∈ channels ctx a, (cellSum s a i j fun g t => spend g t (ch.pos ctx)) ≠ 0 →
      x dist st i j (ch.pos ctx)
        = some (summaryOf np a.level (draws.map fun p =>
          cellSum s a i j (lift ctx p d ch 1 (1 + a.increase) a.byReach a.useKpi)
            / (a.increase * cellSum s a i j fun g t => spend g t (ch.pos ctx))) st)) ∧
    x dist st i j (Row.all.pos ctx a) = none := by
  have hval := (table_eq h).2 _ _ hx _ _ hg st i j
  have hpd := ((summary_variables h).2.2.2.1 .mroi (by simp)).1 (by rw [hx]; rfl) |>.2
  have hinc := ((summary_accepted_iff ctx np smp d spend a).1 ⟨T, h⟩).2.2.1
  constructor
  · intro ch hch h0
    have hr : (Row.one ch).Valid ctx a := hch
    have hlt := pos_lt hch
    obtain ⟨hv, hpaid⟩ := valid_of_mem hch
    rw [hval]
    simp only [value, maskTotal, statQuot]
    rw [if_neg (by omega)]
    refine statN_some np _ st draws _ _ fun p hpp => ?_
    have h2 := spend_row hd hpd spend hs hij hr
    simp only [Row.pos, Row.sum] at h2
    have h1 : (incAggregate ctx d a (nChannels ctx a) (Mmm.useKpi ctx a.useKpi) a.byReach 1
        (1 + a.increase) i j p).getD (ch.pos ctx) 0
        = cellSum s a i j (lift ctx p d ch 1 (1 + a.increase) a.byReach a.useKpi) := by
      rw [useKpi_twice hw]
      have := row_getD (ctx := ctx) (a := a) (r := .one ch) (fun m =>
        cell ctx (nTimesOutput ctx d.nMediaTimes) a i j fun g t =>
          incrementalOutcome ctx p d a.baseline 1 (1 + a.increase) (fun _ => true) a.byReach true
            (Mmm.useKpi ctx a.useKpi) g t m) hr
      simp only [Row.pos, Row.sum] at this
      unfold incAggregate
      rw [this, times_out hd, cell_over hs hij]
      congr 1
      funext g t
      rw [← Metrics.Props.lift_useKpi hw]
      exact Mmm.Props.incremental_is_difference hw (hp p hpp) d hd hv
        (by rintro c rfl; exact (hpaid hpd).elim) _ _ _ _ _ _ _ g t
    rw [h1, h2, mul_comm a.increase]
    exact quot_some (mul_ne_zero h0 hinc.ne')
  · rw [hval]
    simp only [value, maskTotal]
    rw [if_pos (show Row.all.pos ctx a = nChannels ctx a from channels_length ctx a)]

theorem expected_cell {ctx : Ctx} (hw : WF ctx) (d : Data) {s : Sel} {a : Args}
    (hs : s.Resolves ctx a.gi a.ti) {i j : ℕ} (hij : InTable s a i j) (p : Params) :
    cell ctx ctx.nTimes a i j (expectedOutcome ctx p d true (Mmm.useKpi ctx a.useKpi))
      = cellSum s a i j (expectedOutcome ctx p d true a.useKpi) := by
  rw [cell_over hs hij]
  congr 1
  funext g t
  simp only [expectedOutcome, Metrics.Props.useKpi_idem ctx hw]

theorem contribution_eq (np : Np) (level : ℝ) (st : Stat) (draws : List Params) (f h : Params → ℝ)
    (h0 : (draws.map h).sum / draws.length ≠ 0) :
    contribution np level st draws f h
      = some (summaryOf np level (draws.map fun p => f p / ((draws.map h).sum / draws.length) * 100)
        st) := by
  unfold contribution
  refine statN_some np _ st draws _ _ fun p _ => ?_
  rw [quot_some h0]
  rfl

theorem contribution_congr (np : Np) (level : ℝ) (st : Stat) (draws : List Params)
    {f f' h h' : Params → ℝ} (hf : ∀ p ∈ draws, f p = f' p) (hh : ∀ p ∈ draws, h p = h' p) :
    contribution np level st draws f h = contribution np level st draws f' h' := by
  unfold contribution
  rw [List.map_congr_left hh]
  congr 1
  refine List.map_congr_left fun p hp => ?_
  rw [hf p hp]

/-- **C79 (percentage of contribution).** For every row and cell it is the statistics over the draws of
the incremental outcome in percent of the mean expected outcome of the cell. -/
theorem summary_contribution {ctx : Ctx} (hw : WF ctx) {np : Np} {smp : Samples} {d : Data}
    (hd : d.nMediaTimes = ctx.nMediaTimes) {spend : T3} {a : Args} {T : Table}
    (h : summaryMetrics ctx np smp d spend a = .ok T) {s : Sel} (hs : s.Resolves ctx a.gi a.ti)
    {i j : ℕ} (hij : InTable s a i j) {dist : Dist} {draws : List Params}
    (hg : smp.group dist = some draws) (hp : ∀ p ∈ draws, SlopesPos ctx p) {r : Row}
    (hr : r.Valid ctx a) {x : Dist → Stat → ℕ → ℕ → ℕ → Option ℝ}
    (hx : T .pctOfContribution = some x) (st : Stat) :
    let expected := (draws.map fun p =>
      cellSum s a i j (expectedOutcome ctx p d true a.useKpi)).sum / draws.length
    expected ≠ 0 → x dist st i j (r.pos ctx a) = some (summaryOf np a.level
      (draws.map fun p => (r.sum ctx a fun ch =>
        cellSum s a i j (effect ctx p d a.baseline a.useKpi ch)) / expected * 100) st) := by
  intro expected h0
  rw [(table_eq h).2 _ _ hx _ _ hg]
  simp only [value]
  rw [← contribution_eq np a.level st draws _ _ h0]
  refine contribution_congr np _ st draws (fun p hpp => ?_) fun p _ => expected_cell hw d hs hij p
  rw [useKpi_twice hw, inc_row hw (hp p hpp) hd hs hij _ hr]

/-- **C79 (baseline).** The baseline table is given exactly if both distributions have been sampled.  In
every cell it holds the statistics over the draws of the expected outcome when all treatments are at
their baselines, and of this outcome in percent of the mean expected outcome. -/
theorem baseline_values {ctx : Ctx} (hw : WF ctx) {np : Np} {smp : Samples} {a : Args} :
    ((∃ B, baselineMetrics ctx np smp a = .ok B) ↔ smp.prior.isSome ∧ smp.posterior.isSome) ∧
    ∀ B, baselineMetrics ctx np smp a = .ok B → ∀ s : Sel, s.Resolves ctx a.gi a.ti →
      ∀ i j, InTable s a i j → ∀ dist draws, smp.group dist = some draws → ∀ st,
      B .baselineOutcome dist st i j = some (summaryOf np a.level (draws.map fun p =>
        cellSum s a i j (expectedOutcome ctx p (baselineData ctx a.baseline) true a.useKpi)) st) ∧
      ((draws.map fun p => cellSum s a i j (expectedOutcome ctx p ctx.data true a.useKpi)).sum
          / draws.length ≠ 0 →
        B .pctOfContribution dist st i j = some (summaryOf np a.level (draws.map fun p =>
          cellSum s a i j (expectedOutcome ctx p (baselineData ctx a.baseline) true a.useKpi)
            / ((draws.map fun p => cellSum s a i j (expectedOutcome ctx p ctx.data true a.useKpi)).sum
              / draws.length) * 100) st)) := by
  unfold baselineMetrics
  cases e1 : smp.prior with
  | none => simp
  | some prior =>
    cases e2 : smp.posterior with
    | none => simp
    | some posterior =>
      refine ⟨by simp, ?_⟩
      intro B hB s hs i j hij dist draws hg st
      simp only [Except.ok.injEq] at hB
      subst hB
      have main : ∀ ds : List Params,
          stat np a.level st (ds.map fun p => cell ctx ctx.nTimes a i j
            (expectedOutcome ctx p (baselineData ctx a.baseline) true (Mmm.useKpi ctx a.useKpi)))
            = some (summaryOf np a.level (ds.map fun p =>
              cellSum s a i j (expectedOutcome ctx p (baselineData ctx a.baseline) true a.useKpi)) st) ∧
          ((ds.map fun p => cellSum s a i j (expectedOutcome ctx p ctx.data true a.useKpi)).sum
              / ds.length ≠ 0 →
            contribution np a.level st ds
              (fun p => cell ctx ctx.nTimes a i j
                (expectedOutcome ctx p (baselineData ctx a.baseline) true (Mmm.useKpi ctx a.useKpi)))
              (fun p => cell ctx ctx.nTimes a i j
                (expectedOutcome ctx p ctx.data true (Mmm.useKpi ctx a.useKpi)))
              = some (summaryOf np a.level (ds.map fun p =>
                cellSum s a i j (expectedOutcome ctx p (baselineData ctx a.baseline) true a.useKpi)
                  / ((ds.map fun p =>
                      cellSum s a i j (expectedOutcome ctx p ctx.data true a.useKpi)).sum
                    / ds.length) * 100) st)) := by
        intro ds
        refine ⟨?_, fun h0 => ?_⟩
        · rw [stat_eq]
          congr 2
          exact List.map_congr_left fun p _ => expected_cell hw _ hs hij p
        · rw [← contribution_eq np a.level st ds _ _ h0]
          exact contribution_congr np _ st ds (fun p _ => expected_cell hw _ hs hij p)
            fun p _ => expected_cell hw _ hs hij p
      cases dist with
      | prior =>
        simp only [Samples.group, e1, Option.some.injEq] at hg
        subst hg
        exact main prior
      | posterior =>
        simp only [Samples.group, e2, Option.some.injEq] at hg
        subst hg
        exact main posterior

theorem sum_list_sum {α : Type} (l : List α) {β : Type} (m : List β) (f : α → β → ℝ) :
    (l.map fun x => (m.map fun y => f x y).sum).sum = (m.map fun y => (l.map fun x => f x y).sum).sum := by
  induction l with
  | nil => simp
  | cons x l ih => simp only [List.map_cons, List.sum_cons, ih, ← List.sum_map_add]

theorem cellSum_add (s : Sel) (a : Args) (i j : ℕ) (f h : ℕ → ℕ → ℝ) :
    cellSum s a i j (fun g t => f g t + h g t) = cellSum s a i j f + cellSum s a i j h := by
  unfold cellSum
  simp only [List.sum_map_add]

theorem cellSum_list (s : Sel) (a : Args) (i j : ℕ) {β : Type} (m : List β) (f : β → ℕ → ℕ → ℝ) :
    cellSum s a i j (fun g t => (m.map fun y => f y g t).sum) = (m.map fun y => cellSum s a i j (f y)).sum := by
  unfold cellSum
  rw [← sum_list_sum _ m]
  congr 1
  refine List.map_congr_left fun g _ => ?_
  rw [← sum_list_sum _ m]

/-- The expected outcome is that of the baseline plus the effects of all channels, in every geo and
period. -/
theorem effects_decompose {ctx : Ctx} (hw : WF ctx) {p : Params} (hp : SlopesPos ctx p) {a : Args}
    (ha : a.includeNonPaid = true) (g t : ℕ) :
    expectedOutcome ctx p ctx.data true a.useKpi g t
      = expectedOutcome ctx p (baselineData ctx a.baseline) true a.useKpi g t
        + ((channels ctx a).map fun ch => effect ctx p ctx.data a.baseline a.useKpi ch g t).sum := by
  rw [Mmm.Props.outcome_decomposes hw hp ctx.data hw.times rfl rfl a.baseline true true a.useKpi g t]
  congr 1
  have hn : nMediaLike ctx + ctx.nNonMedia = nChannels ctx a := by unfold nChannels; rw [ha]; rfl
  rw [hn, Finset.sum_range, ← List.sum_ofFn]
  have e : (List.ofFn fun m : Fin (nChannels ctx a) =>
      incrementalOutcome ctx p ctx.data a.baseline 0 1 (fun _ => true) true true a.useKpi g t m)
      = (List.range (nChannels ctx a)).map fun m =>
      incrementalOutcome ctx p ctx.data a.baseline 0 1 (fun _ => true) true true a.useKpi g t m := by
    refine List.ext_getElem (by simp) fun k h1 h2 => ?_
    simp
  rw [e, ← channels_pos, List.map_map]
  congr 1
  refine List.map_congr_left fun ch hch => ?_
  exact inc_effect hw hp hw.times (valid_of_mem hch).1 _ _ g t

/-- **C79 (the whole outcome).** With the non-paid channels included, the mean percentages of contribution
of the channels add up to that of all channels, and with that of the baseline table they make 100 percent,
in every cell whose mean expected outcome is not zero. -/
theorem contributions_complete {ctx : Ctx} (hw : WF ctx) {np : Np} {smp : Samples} {spend : T3} {a : Args}
    (ha : a.includeNonPaid = true) {T : Table}
    (h : summaryMetrics ctx np smp ctx.data spend a = .ok T)
    {B : BaseVar → Dist → Stat → ℕ → ℕ → Option ℝ} (hB : baselineMetrics ctx np smp a = .ok B)
    {s : Sel} (hs : s.Resolves ctx a.gi a.ti) {i j : ℕ} (hij : InTable s a i j) {dist : Dist}
    {draws : List Params} (hg : smp.group dist = some draws) (hp : ∀ p ∈ draws, SlopesPos ctx p)
    (h0 : (draws.map fun p => cellSum s a i j (expectedOutcome ctx p ctx.data true a.useKpi)).sum
      / draws.length ≠ 0) :
    ∃ x, T .pctOfContribution = some x ∧ ∃ share : Chan → ℝ, ∃ total base : ℝ,
      (∀ ch ∈ channels ctx a, x dist .mean i j (ch.pos ctx) = some (share ch)) ∧
      x dist .mean i j (Row.all.pos ctx a) = some total ∧
      B .pctOfContribution dist .mean i j = some base ∧
      ((channels ctx a).map share).sum = total ∧ total + base = 100 := by
  have hx := (summary_variables h).2.1.2 hw.times
  obtain ⟨x, hx⟩ := Option.isSome_iff_exists.1 hx
  have hrow := fun r hr => summary_contribution hw hw.times h hs hij hg hp (r := r) hr hx .mean h0
  have hbase := ((baseline_values hw).2 B hB s hs i j hij dist draws hg .mean).2 h0
  refine ⟨x, hx, _, _, _, fun ch hch => hrow (.one ch) hch, hrow .all trivial, hbase, ?_, ?_⟩
  · simp only [summaryOf, Row.sum, List.length_map]
    rw [Metrics.Props.sum_map_div, sum_list_sum]
    congr 2
    refine List.map_congr_left fun p _ => ?_
    rw [List.sum_map_mul_right, Metrics.Props.sum_map_div]
  · simp only [summaryOf, Row.sum, List.length_map] at h0 ⊢
    set M := (draws.map fun p => cellSum s a i j (expectedOutcome ctx p ctx.data true a.useKpi)).sum
      / (draws.length : ℝ) with hM
    rw [← add_div, ← List.sum_map_add]
    have e : (draws.map fun p => ((channels ctx a).map fun ch =>
          cellSum s a i j (effect ctx p ctx.data a.baseline a.useKpi ch)).sum / M * 100
          + cellSum s a i j (expectedOutcome ctx p (baselineData ctx a.baseline) true a.useKpi) / M * 100)
        = draws.map fun p => cellSum s a i j (expectedOutcome ctx p ctx.data true a.useKpi) / M * 100 := by
      refine List.map_congr_left fun p hpp => ?_
      have : cellSum s a i j (expectedOutcome ctx p ctx.data true a.useKpi)
          = cellSum s a i j (expectedOutcome ctx p (baselineData ctx a.baseline) true a.useKpi)
            + ((channels ctx a).map fun ch =>
              cellSum s a i j (effect ctx p ctx.data a.baseline a.useKpi ch)).sum := by
        rw [← cellSum_list, ← cellSum_add]
        congr 1
        funext g t
        exact effects_decompose hw (hp p hpp) ha g t
      rw [this]
      ring
    rw [e, List.sum_map_mul_right, Metrics.Props.sum_map_div]
    have e2 : (draws.map fun p => cellSum s a i j (expectedOutcome ctx p ctx.data true a.useKpi)).sum
        = M * draws.length := by
      rw [hM, div_mul_cancel₀]
      intro h1
      rw [h1, div_zero] at hM
      exact h0 hM
    have hl : (draws.length : ℝ) ≠ 0 := by
      intro h1
      rw [h1, div_zero] at hM
      exact h0 hM
    rw [e2]
    field_simp

/-! ### Findings -/

theorem reshown_units {ctx : Ctx} (d : Data) (nT : ℕ) (f : ℕ → ℝ) (hf : ∀ c, f c ≠ 0) :
    units ctx (reshown ctx d f) nT = units ctx d nT := by
  have e : ∀ r q x : ℝ, x ≠ 0 → r * q / (1 * x) * (1 * x) = r * q := by
    intro r q x hx
    field_simp
  unfold units
  have h1 : (fun (g t c : ℕ) => (reshown ctx d f).reach g ((reshown ctx d f).nMediaTimes - nT + t) c
      * (reshown ctx d f).frequency g ((reshown ctx d f).nMediaTimes - nT + t) c)
      = fun g t c => d.reach g (d.nMediaTimes - nT + t) c * d.frequency g (d.nMediaTimes - nT + t) c := by
    funext g t c
    simp only [reshown]
    exact e _ _ _ (hf c)
  have h2 : (fun (g t c : ℕ) => (reshown ctx d f).organicReach g
        ((reshown ctx d f).nMediaTimes - nT + t) c
      * (reshown ctx d f).organicFrequency g ((reshown ctx d f).nMediaTimes - nT + t) c)
      = fun g t c => d.organicReach g (d.nMediaTimes - nT + t) c
        * d.organicFrequency g (d.nMediaTimes - nT + t) c := by
    funext g t c
    simp only [reshown]
    refine e _ _ _ ?_
    by_cases h : ctx.rf.n = 1
    · rw [if_pos h]; exact hf 0
    · rw [if_neg h]; exact hf c
  simp only [h1, h2]
  rfl

/-- **C79, finding.** The frequencies passed as `optimal_frequency` ("an optional list … to calculate
metrics at") have no effect: if the request is accepted, the table is the one without them. -/
theorem optimal_frequency_without_effect (ctx : Ctx) (np : Np) (s : Samples) (d : Data) (spend : T3)
    (a : Args) (f : ℕ → ℝ) (hf : ∀ c, f c ≠ 0) {T : Table}
    (h : summaryMetrics ctx np s d spend { a with opt := some f } = .ok T) :
    summaryMetrics ctx np s d spend { a with opt := none } = .ok T := by
  have hv : ∀ draws st i j m v, value ctx np d spend { a with opt := some f } draws st i j m v
      = value ctx np d spend { a with opt := none } draws st i j m v := by
    intro draws st i j m v
    have hi : impressionsWithTotal ctx d { a with opt := some f } i j
        = impressionsWithTotal ctx d { a with opt := none } i j := by
      unfold impressionsWithTotal
      simp only [Option.elim_some, Option.elim_none, reshown_units d _ f hf]
      rfl
    cases v <;> simp only [value, hi] <;> rfl
  unfold summaryMetrics at h ⊢
  by_cases hs : a.includeNonPaid = true ∧ (some f).isSome = true ∧ organicShapeOk ctx = false
  · rw [if_pos hs] at h
    cases h
  · rw [if_neg hs] at h
    rw [if_neg (by simp)]
    simp only [hv] at h
    exact h

/-- **C79, finding.** Frequencies for the paid channels together with `include_non_paid_channels` are
refused with a shape error when the model has another number of organic reach and frequency channels. -/
theorem organic_frequency_rejected (ctx : Ctx) (np : Np) (s : Samples) (d : Data) (spend : T3) (a : Args)
    (f : ℕ → ℝ) (ha : a.includeNonPaid = true) (h0 : ctx.organicRf.n ≠ 0) (h1 : ctx.rf.n ≠ 1)
    (h2 : ctx.rf.n ≠ ctx.organicRf.n) :
    summaryMetrics ctx np s d spend { a with opt := some f } = .error .shape := by
  unfold summaryMetrics
  rw [if_pos]
  exact ⟨ha, rfl, by unfold organicShapeOk; exact decide_eq_false (by tauto)⟩

/-! ### Concrete cases -/

/-- A stand-in for the order statistics. -/
noncomputable def demoNp : Np := ⟨fun l q => q * l.sum, fun l => l.sum / 2⟩

/-- One prior draw, two posterior draws. -/
noncomputable def demoSamples : Samples :=
  ⟨some [Mmm.Props.demoParams 1], some [Mmm.Props.demoParams 1, Mmm.Props.demoParams 2]⟩

theorem demo_cell {a : Args} (hg : a.gi = some [1]) (ht : a.ti = none) (h1 : a.aggregateGeos = true)
    (h2 : a.aggregateTimes = true) (f : ℕ → ℕ → ℝ) :
    InTable Metrics.Props.demoSel a 0 0 ∧ cellSum Metrics.Props.demoSel a 0 0 f = f 1 0 + f 1 1 := by
  have hij : InTable Metrics.Props.demoSel a 0 0 := by
    unfold InTable parts
    simp [h1, h2]
  have hs : Metrics.Props.demoSel.Resolves (Mmm.Props.demo .hill) a.gi a.ti := by
    rw [hg, ht]
    exact Metrics.Props.demo_resolves
  refine ⟨hij, ?_⟩
  rw [← cell_over hs hij]
  unfold cell
  rw [h1, h2, hg, ht]
  simp [filterAggregate, axis, Mmm.Props.demo, List.range_succ]

/-- The hypotheses of the theorems are met, with and without the non-paid channels: requests are accepted,
the selection resolves, the cell exists, slopes are positive, the rows exist, and spend and units are not
zero. -/
example (nonPaid : Bool) :
    let ctx := Mmm.Props.demo .hill
    let a : Args := { gi := some [1], includeNonPaid := nonPaid }
    WF ctx ∧ (∃ T, summaryMetrics ctx demoNp demoSamples ctx.data (fun _ _ _ => 1) a = .ok T) ∧
    (∃ B, baselineMetrics ctx demoNp demoSamples a = .ok B) ∧
    Metrics.Props.demoSel.Resolves ctx a.gi a.ti ∧ InTable Metrics.Props.demoSel a 0 0 ∧
    (∃ draws, demoSamples.group .posterior = some draws ∧ draws ≠ [] ∧
      ∀ p ∈ draws, SlopesPos ctx p) ∧
    (Row.one (.rf 0)).Valid ctx a ∧ (nonPaid = true → (Row.one (.nonMedia 0)).Valid ctx a) ∧
    (cellSum Metrics.Props.demoSel a 0 0 fun _ _ => 1) ≠ 0 ∧
    cellSum Metrics.Props.demoSel a 0 0 (unitsOf ctx ctx.data (.rf 0)) = 4 + 9 := by
  intro ctx a
  refine ⟨Mmm.Props.demo_wf _, (summary_accepted_iff ..).2 ⟨rfl, rfl, by norm_num [a], by simp [a]⟩,
    (baseline_values (Mmm.Props.demo_wf _)).1.2 ⟨rfl, rfl⟩, Metrics.Props.demo_resolves,
    (demo_cell rfl rfl rfl rfl fun _ _ => 1).1, ⟨_, rfl, by simp, ?_⟩, ?_, ?_, ?_, ?_⟩
  · intro p hp
    simp only [List.mem_cons, List.not_mem_nil, or_false] at hp
    rcases hp with rfl | rfl
    · exact Mmm.Props.demo_slopes _
    · simp [SlopesPos, Mmm.Props.demoParams]
  · simp [Row.Valid, channels, ctx, Mmm.Props.demo]
  · rintro rfl
    simp [Row.Valid, channels, ctx, a, Mmm.Props.demo]
  · rw [(demo_cell rfl rfl rfl rfl _).2]
    norm_num
  · rw [(demo_cell rfl rfl rfl rfl _).2]
    norm_num [unitsOf, ctx, Mmm.Props.demo]

/-- A model with a non-media treatment only. -/
noncomputable def demoNm : Ctx :=
  { Mmm.Props.demo .hill with
    media := ⟨0, .inl .geometric, .inl .hill, fun _ => 1⟩
    rf := ⟨0, .inl .geometric, .inl .hill, fun _ => 1⟩
    organicMedia := ⟨0, .inl .geometric, .inl .hill, fun _ => 1⟩
    organicRf := ⟨0, .inl .geometric, .inl .hill, fun _ => 1⟩ }

/-- In it the mean expected outcome of the second geo is not zero. -/
example : (([Mmm.Props.demoParams 1].map fun p => cellSum Metrics.Props.demoSel
    { gi := some [1], includeNonPaid := true } 0 0
      (expectedOutcome demoNm p demoNm.data true false)).sum / (1 : ℕ) : ℝ) ≠ 0 := by
  simp only [List.map_cons, List.map_nil, List.sum_cons, List.sum_nil]
  rw [(demo_cell rfl rfl rfl rfl _).2]
  norm_num [expectedOutcome, demoNm, Mmm.Props.demo, Mmm.Props.demoParams, useKpi, revenue, kpiInverse,
    kpiMeans, scaleData, scaleCs, csForward, nMediaLike, divideNoNan]

end Verif.Summary.Props
