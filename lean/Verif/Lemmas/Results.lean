import Verif.Spec.Results
import Verif.Model.Results
import Verif.Props.Curves
import Mathlib.Tactic

namespace Verif.Results

open Verif.Adstock Verif.Transformers Verif.Mmm Verif.Mmm.Spec Verif.Metrics.Spec Verif.Curves
open Verif.Results.Spec Finset

/-- Channel `ch` of `D` runs at `k` times the executions it has in `D'`. -/
structure Runs (D D' : Data) (ch : Chan) (k : ℝ) : Prop where
  times : D.nMediaTimes = D'.nMediaTimes
  revenue : D.revenuePerKpi = D'.revenuePerKpi
  run : match ch with
    | .media c => ∀ g t, D.media g t c = k * D'.media g t c
    | .rf c => ∀ φ : ℝ → ℝ, φ 0 = 0 → ∀ g t,
        D.reach g t c * φ (D.frequency g t c) = k * (D'.reach g t c * φ (D'.frequency g t c))
    | _ => False

theorem multiplier_all (s : ℝ) (t : ℕ) : multiplier s (fun _ => true) t = s := by
  simp [multiplier]

theorem value_runs {ctx : Ctx} {p : Params} (hp : SlopesPos ctx p) {D D' : Data} {ch : Chan} {k : ℝ}
    (hv : ch.Valid ctx) (h : Runs D D' ch k) (s : ℝ) (n g t : ℕ) :
    value ctx p (scaleData ctx (scaleByMultiplier D (multiplier s fun _ => true) true)) n ch g t
      = value ctx p (scaleData ctx (scaleByMultiplier D' (multiplier (s * k) fun _ => true) true)) n ch
        g t := by
  obtain ⟨ht, -, hr⟩ := h
  cases ch with
  | media c =>
    simp only [value, scaleData, scaleByMultiplier, multiplier_all]
    rw [ht]
    apply adstockHillMedia_congr
    intro u
    apply scaleMedia_congr
    simp only [hr]
    ring
  | rf c =>
    simp only [value, scaleData, scaleByMultiplier, multiplier_all, if_true]
    rw [ht]
    unfold adstockHillRf
    apply adstockForward_congr
    intro u _
    have h0 : (fun x : ℝ => if mask ctx.rf c = true then hill x (p.rf.ec c) (p.rf.slope c) else x) 0
        = 0 := by
      simp only [hill_zero (hp.2.1 c hv)]
      split_ifs <;> rfl
    have := hr (fun x : ℝ => if mask ctx.rf c = true then hill x (p.rf.ec c) (p.rf.slope c) else x) h0 g u
    simp only [scaleMedia, mediaForward, mediaScale, hillForward]
    rw [div_mul_eq_mul_div, div_mul_eq_mul_div]
    congr 1
    linear_combination s * this
  | _ => exact hr.elim

theorem runs_paid {D D' : Data} {ch : Chan} {k : ℝ} (h : Runs D D' ch k) : Paid ch := by
  have := h.run
  cases ch <;> simp only at this <;> trivial

theorem paid_mediaLike {ch : Chan} (h : Paid ch) : MediaLike ch := by
  cases ch <;> trivial

theorem unit_runs (ctx : Ctx) {D D' : Data} (h : D.revenuePerKpi = D'.revenuePerKpi) (i uk : Bool)
    (g t : ℕ) : unit ctx D i uk g t = unit ctx D' i uk g t := by
  simp only [unit, revenue, h]

/-- The incremental outcome of a channel between two scalings of `D` is the lift between the
corresponding scalings of `D'`. -/
theorem inc_runs {ctx : Ctx} (hw : WF ctx) {p : Params} (hp : SlopesPos ctx p) {D D' : Data} {ch : Chan}
    {k : ℝ} (hv : ch.Valid ctx) (h : Runs D D' ch k) (hd : D'.nMediaTimes = ctx.nMediaTimes) (s0 s1 : ℝ)
    (uk : Bool) (g t : ℕ) :
    incrementalOutcome ctx p D (fun _ => 0) s0 s1 (fun _ => true) true true uk g t (ch.pos ctx)
      = lift ctx p D' ch (s0 * k) (s1 * k) true uk g t := by
  have hpaid := runs_paid h
  have hm := paid_mediaLike hpaid
  rw [← Metrics.Props.inc_lift hw hp D' hd hv hpaid, incrementalOutcome_media hw hp hv hm,
    incrementalOutcome_media hw hp hv hm, value_treat_self hm, value_treat_self hm,
    value_treat_self hm, value_treat_self hm, value_runs hp hv h, value_runs hp hv h,
    unit_runs ctx h.revenue, h.times]

/-- Two data sets in which the channel runs alike give the same incremental outcome, whatever the number
of times. -/
theorem inc_same {ctx : Ctx} (hw : WF ctx) {p : Params} (hp : SlopesPos ctx p) {D D' : Data} {ch : Chan}
    {k : ℝ} (hv : ch.Valid ctx) (h : Runs D D' ch k) (s0 s1 : ℝ)
    (uk : Bool) (g t : ℕ) :
    incrementalOutcome ctx p D (fun _ => 0) s0 s1 (fun _ => true) true true uk g t (ch.pos ctx)
      = incrementalOutcome ctx p D' (fun _ => 0) (s0 * k) (s1 * k) (fun _ => true) true true uk g t
        (ch.pos ctx) := by
  have hpaid := runs_paid h
  have hm := paid_mediaLike hpaid
  rw [incrementalOutcome_media hw hp hv hm,
    incrementalOutcome_media hw hp hv hm, value_treat_self hm, value_treat_self hm,
    value_treat_self hm, value_treat_self hm, value_runs hp hv h, value_runs hp hv h,
    unit_runs ctx h.revenue, h.times]

theorem incDraw_runs {ctx : Ctx} (hw : WF ctx) {p : Params} (hp : SlopesPos ctx p) {D D' : Data}
    {ch : Chan} {k : ℝ} (hv : ch.Valid ctx) (h : Runs D D' ch k) (hd : D'.nMediaTimes = ctx.nMediaTimes)
    {s : Sel} {gi ti : Option (List ℕ)} (hs : s.Resolves ctx gi ti) (s0 s1 : ℝ) (uk : Bool) :
    incDraw ctx D gi ti uk s0 s1 (ch.pos ctx) p
      = s.sum (lift ctx p D' ch (s0 * k) (s1 * k) true uk) := by
  unfold incDraw
  rw [total_eq hs]
  congr 1
  funext g t
  exact inc_runs hw hp hv h hd s0 s1 uk g t

theorem lastRf_eq (ctx : Ctx) (x : ℕ → ℝ) (c : ℕ) : lastRf ctx x c = x (ctx.media.n + c) := by
  unfold lastRf nPaid
  congr 1; omega

theorem divideNoNan_eq (a b : ℝ) : divideNoNan a b = a / b := by
  unfold divideNoNan
  split_ifs with h
  · rfl
  · push Not at h; rw [h]; simp

/-- The data of a row of the grid run every paid channel at its multiplier. -/
theorem runs_grid (ctx : Ctx) (d : Data) (opt : Option (ℕ → ℝ)) (mult : ℕ → ℝ)
    {ch : Chan} (hpaid : Paid ch) :
    Runs (gridData ctx d opt mult) (shownAt d opt) ch (mult (ch.pos ctx)) := by
  constructor
  · cases opt <;> rfl
  · cases opt <;> rfl
  · cases ch with
    | media c => cases opt <;> intro g t <;> rfl
    | rf c =>
      cases opt with
      | none =>
        intro φ _ g t
        simp only [gridData, shownAt, lastRf_eq, Chan.pos]
        ring
      | some f =>
        intro φ _ g t
        simp only [gridData, shownAt, lastRf_eq, Chan.pos, divideNoNan_eq, one_mul]
        ring
    | _ => exact hpaid.elim

/-- The data of the results run every paid channel at new over historical spend. -/
theorem runs_result {ctx : Ctx} (d : Data) {opt : Option (ℕ → ℝ)} (hz : NonZero ctx opt)
    (hist spend : ℕ → ℝ) {ch : Chan} (hv : ch.Valid ctx) (hpaid : Paid ch) :
    Runs (resultData ctx d opt hist spend) (shownAt d opt) ch
      (spend (ch.pos ctx) / hist (ch.pos ctx)) := by
  constructor
  · cases opt <;> rfl
  · cases opt <;> rfl
  · cases ch with
    | media c =>
      intro g t
      cases opt <;> simp only [resultData, shownAt, Chan.pos, divideNoNan_eq]
    | rf c =>
      intro φ h0 g t
      cases opt with
      | none =>
        simp only [resultData, shownAt, lastRf_eq, Chan.pos, divideNoNan_eq]
        set k := spend (ctx.media.n + c) / hist (ctx.media.n + c)
        by_cases hf : d.frequency g t c = 0
        · rw [hf]; simp [h0]
        · have e1 : k * (d.reach g t c * d.frequency g t c) / d.frequency g t c
              = k * d.reach g t c := by field_simp
          rw [e1]
          by_cases hr : k * d.reach g t c = 0
          · rw [← mul_assoc, ← mul_assoc, hr]; simp
          · have e2 : k * (d.reach g t c * d.frequency g t c) / (k * d.reach g t c)
                = d.frequency g t c := by
              rw [← mul_assoc, mul_div_assoc, mul_comm, div_mul_cancel₀ _ hr]
            rw [e2]; ring
      | some f =>
        simp only [resultData, shownAt, lastRf_eq, Chan.pos, divideNoNan_eq]
        set k := spend (ctx.media.n + c) / hist (ctx.media.n + c)
        have hf : f c ≠ 0 := hz c hv
        by_cases hr : k * (d.reach g t c * d.frequency g t c) = 0
        · rw [hr]
          have : k * (d.reach g t c * d.frequency g t c / f c * φ (f c))
              = k * (d.reach g t c * d.frequency g t c) / f c * φ (f c) := by ring
          rw [this, hr]; simp
        · have e2 : k * (d.reach g t c * d.frequency g t c)
              / (k * (d.reach g t c * d.frequency g t c) / f c) = f c := by
            rw [div_div_eq_mul_div, mul_div_assoc, mul_comm, div_mul_cancel₀]
            exact hr
          rw [e2]; ring
    | _ => exact hpaid.elim

theorem shownAt_times (d : Data) (opt : Option (ℕ → ℝ)) : (shownAt d opt).nMediaTimes = d.nMediaTimes := by
  cases opt <;> rfl

end Verif.Results
