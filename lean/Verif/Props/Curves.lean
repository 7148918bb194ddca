import Verif.Lemmas.Curves

/-!
# C39: response curves, C40: optimal frequency
-/

namespace Verif.Curves.Props

open Verif.Mmm Verif.Mmm.Spec Verif.Metrics Verif.Metrics.Spec Verif.Curves Verif.Curves.Spec Finset

theorem curvePoint_ok_iff (ctx : Ctx) (draws : List Params) (d : Data) (gi ti : Option (List ℕ))
    (br uk : Bool) (m : ℕ) (k : ℝ) :
    (∃ y, curvePoint ctx draws d gi ti br uk m k = .ok y) ↔ 0 ≤ k := by
  unfold curvePoint
  split_ifs with h
  · simp [h]
  · rcases lt_or_gt_of_ne h with hk | hk
    · simp [checkFactors, hk, hk.not_ge]
    · simp [checkFactors, hk.le, not_lt.2 hk.le, not_le.2 hk]

/-- **C39 (accepted multipliers).** A response curve is computed exactly when no multiplier is
negative. -/
theorem curve_accepted_iff (ctx : Ctx) (draws : List Params) (d : Data) (gi ti : Option (List ℕ))
    (br uk : Bool) (m : ℕ) (mults : List ℝ) :
    (∃ ys, responseCurve ctx draws d gi ti br uk m mults = .ok ys) ↔ ∀ k ∈ mults, 0 ≤ k := by
  induction mults with
  | nil => simp [responseCurve]
  | cons k l ih =>
    unfold responseCurve
    have hp := curvePoint_ok_iff ctx draws d gi ti br uk m k
    cases h1 : curvePoint ctx draws d gi ti br uk m k with
    | error e =>
      rw [h1] at hp
      simp only [reduceCtorEq, exists_false, false_iff] at hp ⊢
      exact fun h => hp (h k (by simp))
    | ok y =>
      rw [h1] at hp
      simp only [Except.ok.injEq, exists_eq', true_iff] at hp
      simp only [List.mem_cons, forall_eq_or_imp, hp, true_and, ← ih]
      cases responseCurve ctx draws d gi ti br uk m l <;> simp

theorem lift_same (ctx : Ctx) (p : Params) (d : Data) (ch : Chan) (s : ℝ) (br uk : Bool) :
    lift ctx p d ch s s br uk = fun _ _ => 0 := by
  funext g t; simp [lift]

theorem sum_zero (s : Sel) : s.sum (fun _ _ => 0) = 0 := by simp [Sel.sum, Sel.timeSum]

/-- **C39 (scaling factors).** `incremental_outcome` compares two scalings of the media; it accepts
exactly a non-negative first one and a larger second one. -/
theorem factors_accepted_iff (s0 s1 : ℝ) : checkFactors s0 s1 = .ok () ↔ 0 ≤ s0 ∧ s0 < s1 := by
  unfold checkFactors
  by_cases h1 : s1 < 0
  · rw [if_pos h1]
    exact ⟨fun h => (by cases h), fun h => absurd (h.1.trans_lt h.2) (not_lt.2 h1.le)⟩
  · rw [if_neg h1]
    by_cases h2 : s0 < 0
    · rw [if_pos h2]
      exact ⟨fun h => (by cases h), fun h => absurd h.1 (not_le.2 h2)⟩
    · rw [if_neg h2]
      by_cases h3 : s1 ≤ s0
      · rw [if_pos h3]
        exact ⟨fun h => (by cases h), fun h => absurd h.2 (not_lt.2 h3)⟩
      · rw [if_neg h3]
        exact ⟨fun _ => ⟨not_lt.1 h2, not_le.1 h3⟩, fun _ => rfl⟩

theorem curvePoint_eq {ctx : Ctx} (hw : WF ctx) {draws : List Params}
    (hp : ∀ p ∈ draws, SlopesPos ctx p) {d : Data} (hd : d.nMediaTimes = ctx.nMediaTimes) {ch : Chan}
    (hv : ch.Valid ctx) (hpaid : Paid ch) {s : Sel} {gi ti : Option (List ℕ)}
    (hs : s.Resolves ctx gi ti) (br uk : Bool) {k y : ℝ}
    (h : curvePoint ctx draws d gi ti br uk (ch.pos ctx) k = .ok y) :
    y = mean draws fun p => s.sum (lift ctx p d ch 0 k br uk) := by
  unfold curvePoint at h
  split_ifs at h with h0
  · simp only [Except.ok.injEq] at h
    subst h0
    simp [lift_same, sum_zero, mean, ← h]
  · split at h
    · cases h
    · simp only [Except.ok.injEq] at h
      rw [← h]
      unfold mean
      congr 2
      apply List.map_congr_left
      intro p hpd
      rw [total_eq hs]
      simp only [Metrics.Props.inc_lift hw (hp p hpd) d hd hv hpaid]

theorem curve_getElem {ctx : Ctx} {draws : List Params} {d : Data} {gi ti : Option (List ℕ)}
    {br uk : Bool} {m : ℕ} {mults ys : List ℝ}
    (h : responseCurve ctx draws d gi ti br uk m mults = .ok ys) :
    ys.length = mults.length ∧ ∀ (i : ℕ) k, mults[i]? = some k →
      ∃ y, ys[i]? = some y ∧ curvePoint ctx draws d gi ti br uk m k = .ok y := by
  induction mults generalizing ys with
  | nil =>
    simp only [responseCurve, Except.ok.injEq] at h
    subst h; simp
  | cons a l ih =>
    unfold responseCurve at h
    cases h1 : curvePoint ctx draws d gi ti br uk m a with
    | error e => rw [h1] at h; cases h
    | ok y =>
      rw [h1] at h
      simp only at h
      cases h2 : responseCurve ctx draws d gi ti br uk m l with
      | error e => rw [h2] at h; cases h
      | ok zs =>
        rw [h2] at h
        simp only [Except.ok.injEq] at h
        subst h
        obtain ⟨hl, hi⟩ := ih h2
        refine ⟨by simp [hl], fun i k hk => ?_⟩
        cases i with
        | zero =>
          simp only [List.getElem?_cons_zero, Option.some.injEq] at hk
          subst hk
          exact ⟨y, by simp, h1⟩
        | succ i =>
          simp only [List.getElem?_cons_succ] at hk ⊢
          exact hi i k hk

/-- **C39 (meaning).** Each point of a response curve is the mean over draws of the change of the expected
outcome, over the selected geos and times, when the channel goes from nothing to the given multiple of
its execution. -/
theorem curve_meaning {ctx : Ctx} (hw : WF ctx) {draws : List Params}
    (hp : ∀ p ∈ draws, SlopesPos ctx p) {d : Data} (hd : d.nMediaTimes = ctx.nMediaTimes) {ch : Chan}
    (hv : ch.Valid ctx) (hpaid : Paid ch) {s : Sel} {gi ti : Option (List ℕ)}
    (hs : s.Resolves ctx gi ti) (br uk : Bool) (mults ys : List ℝ)
    (h : responseCurve ctx draws d gi ti br uk (ch.pos ctx) mults = .ok ys) :
    ys = mults.map fun k => mean draws fun p => s.sum (lift ctx p d ch 0 k br uk) := by
  obtain ⟨hl, hi⟩ := curve_getElem h
  apply List.ext_getElem
  · simpa using hl
  · intro i h1 h2
    have hk : mults[i]? = some (mults[i]'(by simpa using h2)) :=
      List.getElem?_eq_getElem (by simpa using h2)
    obtain ⟨y, hy, hc⟩ := hi i _ hk
    rw [List.getElem?_eq_getElem h1, Option.some.injEq] at hy
    rw [hy, curvePoint_eq hw hp hd hv hpaid hs br uk hc]
    simp

/-- **C39 (anchors).** The curve is zero at multiplier zero, and at multiplier one it is the mean
incremental outcome of the channel. -/
theorem curve_anchored {ctx : Ctx} (hw : WF ctx) {draws : List Params}
    (hp : ∀ p ∈ draws, SlopesPos ctx p) {d : Data} (hd : d.nMediaTimes = ctx.nMediaTimes) {ch : Chan}
    (hv : ch.Valid ctx) (hpaid : Paid ch) {s : Sel} {gi ti : Option (List ℕ)}
    (hs : s.Resolves ctx gi ti) (br uk : Bool) (mults ys : List ℝ)
    (h : responseCurve ctx draws d gi ti br uk (ch.pos ctx) mults = .ok ys) (i : ℕ) (y : ℝ)
    (hy : ys[i]? = some y) :
    (mults[i]? = some 0 → y = 0) ∧
    (mults[i]? = some 1 → y = mean draws fun p => s.sum fun g t =>
      incrementalOutcome ctx p d (fun _ => 0) 0 1 (fun _ => true) br true uk g t (ch.pos ctx)) := by
  rw [curve_meaning hw hp hd hv hpaid hs br uk mults ys h, List.getElem?_map] at hy
  constructor
  · intro hk
    rw [hk] at hy
    simp only [Option.map_some, Option.some.injEq] at hy
    rw [← hy]
    simp [lift_same, sum_zero, mean]
  · intro hk
    rw [hk] at hy
    simp only [Option.map_some, Option.some.injEq] at hy
    rw [← hy]
    unfold mean
    congr 2
    apply List.map_congr_left
    intro p hpd
    simp only [Metrics.Props.inc_lift hw (hp p hpd) d hd hv hpaid]

theorem lift_mono {ctx : Ctx} (hw : WF ctx) {p : Params} (hsl : SlopesPos ctx p) {d : Data}
    (hd : d.nMediaTimes = ctx.nMediaTimes) (hok : DataOk ctx d) {ch : Chan}
    (hv : ch.Valid ctx) (hpaid : Paid ch) (hp : ParamsOk p ch) (br uk : Bool) {a b : ℝ} (ha : 0 ≤ a)
    (hab : a ≤ b) (g t : ℕ) : lift ctx p d ch 0 a br uk g t ≤ lift ctx p d ch 0 b br uk g t := by
  rw [← Metrics.Props.inc_lift hw hsl d hd hv hpaid, ← Metrics.Props.inc_lift hw hsl d hd hv hpaid,
    incrementalOutcome_media hw hsl hv (paid_mediaLike hpaid),
    incrementalOutcome_media hw hsl hv (paid_mediaLike hpaid),
    value_treat_self (paid_mediaLike hpaid), value_treat_self (paid_mediaLike hpaid),
    value_treat_self (paid_mediaLike hpaid)]
  apply mul_le_mul_of_nonneg_right _ (unit_nonneg hok uk g t)
  apply mul_le_mul_of_nonneg_right _ (coef_nonneg hp g)
  exact sub_le_sub_right (value_mono hw hok hp br ha hab _ g t) _

theorem sum_mono (s : Sel) (f h : ℕ → ℕ → ℝ) (hle : ∀ g t, f g t ≤ h g t) : s.sum f ≤ s.sum h := by
  unfold Sel.sum Sel.timeSum
  exact Finset.sum_le_sum fun g _ => Finset.sum_le_sum fun t _ => hle g t

/-- **C39 (monotone).** With parameters and data in their domains the curve does not decrease when the
multiplier grows, scaling by reach as well as by frequency. -/
theorem curve_monotone {ctx : Ctx} (hw : WF ctx) {draws : List Params}
    (hp : ∀ p ∈ draws, SlopesPos ctx p) {d : Data} (hd : d.nMediaTimes = ctx.nMediaTimes) {ch : Chan}
    (hv : ch.Valid ctx) (hpaid : Paid ch) (hpar : ∀ p ∈ draws, ParamsOk p ch) (hok : DataOk ctx d)
    {s : Sel} {gi ti : Option (List ℕ)} (hs : s.Resolves ctx gi ti) (br uk : Bool) (mults ys : List ℝ)
    (h : responseCurve ctx draws d gi ti br uk (ch.pos ctx) mults = .ok ys) (i j : ℕ) (a b y z : ℝ)
    (ha : mults[i]? = some a) (hb : mults[j]? = some b) (hab : a ≤ b) (hy : ys[i]? = some y)
    (hz : ys[j]? = some z) : y ≤ z := by
  have ha0 : 0 ≤ a := (curve_accepted_iff ctx draws d gi ti br uk _ mults).1 ⟨_, h⟩ a
    (List.mem_of_getElem? ha)
  rw [curve_meaning hw hp hd hv hpaid hs br uk mults ys h, List.getElem?_map] at hy hz
  rw [ha] at hy
  rw [hb] at hz
  simp only [Option.map_some, Option.some.injEq] at hy hz
  rw [← hy, ← hz]
  exact mean_mono _ _ _ fun p hpd => sum_mono _ _ _ fun g t =>
    lift_mono hw (hp p hpd) hd hok hv hpaid (hpar p hpd) br uk ha0 hab g t

theorem value_linear_reach {ctx : Ctx} {p : Params} {d : Data} (c : ℕ) (k : ℝ) (nOut g t : ℕ) :
    value ctx p (scaleData ctx (scaleByMultiplier d (multiplier k fun _ => true) true)) nOut (.rf c) g t
      = k * value ctx p (scaleData ctx (scaleByMultiplier d (multiplier 1 fun _ => true) true)) nOut
        (.rf c) g t := by
  have hm : ∀ s t, multiplier s (fun _ => true) t = s := by intro s t; simp [multiplier]
  simp only [value, scaleData, scaleByMultiplier, hm]
  unfold adstockHillRf
  apply adstockForward_smul
  intro u
  simp only [scaleMedia, Transformers.mediaForward, if_true]
  ring

/-- **C39 (by reach the curve is a straight line).** For a channel with reach and frequency, scaled by
reach, the curve is proportional to the multiplier. -/
theorem curve_linear_by_reach {ctx : Ctx} (hw : WF ctx) {draws : List Params}
    (hp : ∀ p ∈ draws, SlopesPos ctx p) {d : Data} (hd : d.nMediaTimes = ctx.nMediaTimes) {c : ℕ}
    (hc : c < ctx.rf.n) {s : Sel} {gi ti : Option (List ℕ)}
    (hs : s.Resolves ctx gi ti) (uk : Bool) (mults ys : List ℝ)
    (h : responseCurve ctx draws d gi ti true uk ((Chan.rf c).pos ctx) mults = .ok ys) :
    ys = mults.map fun k => k * mean draws fun p => s.sum (lift ctx p d (.rf c) 0 1 true uk) := by
  rw [curve_meaning hw hp hd (ch := .rf c) hc trivial hs true uk mults ys h]
  apply List.map_congr_left
  intro k _
  unfold mean
  rw [← mul_div_assoc, ← List.sum_map_mul_left]
  congr 2
  apply List.map_congr_left
  intro p hpd
  have e : lift ctx p d (.rf c) 0 k true uk = fun g t => lift ctx p d (.rf c) 0 1 true uk g t * k := by
    funext g t
    rw [← Metrics.Props.inc_lift hw (hp p hpd) d hd (ch := .rf c) hc trivial,
      ← Metrics.Props.inc_lift hw (hp p hpd) d hd (ch := .rf c) hc trivial,
      incrementalOutcome_media hw (hp p hpd) (ch := .rf c) hc trivial,
      incrementalOutcome_media hw (hp p hpd) (ch := .rf c) hc trivial,
      value_treat_self (ch := .rf c) trivial, value_treat_self (ch := .rf c) trivial,
      value_treat_self (ch := .rf c) trivial, value_linear_reach c k, value_linear_reach c 0]
    ring
  rw [e, Metrics.Props.sum_mul_right, mul_comm]

/-- **C39 (spend).** The spend coordinate is the multiplier times the spend of the selection. -/
theorem curve_spend {ctx : Ctx} {s : Sel} {gi ti : Option (List ℕ)} (hs : s.Resolves ctx gi ti) (x : T3)
    (m : ℕ) (mults : List ℝ) :
    curveSpend ctx (.cells x) gi ti m mults = mults.map fun k => k * s.sum fun g t => x g t m := by
  simp only [curveSpend, total_eq hs]

/-! ### C40 -/

/-- **C40 (impressions).** Expressing reach and frequency at any non-zero frequencies keeps the
impressions of every geo, time and channel. -/
theorem impressions_kept (d : Data) (f : ℕ → ℝ) (g t c : ℕ) (h : f c ≠ 0) :
    (atFrequency d f).reach g t c * (atFrequency d f).frequency g t c
      = d.reach g t c * d.frequency g t c ∧ (atFrequency d f).frequency g t c = f c := by
  simp only [atFrequency]
  constructor
  · field_simp
  · ring

/-- `np.nanargmax`: the first position of the largest value. -/
theorem nanargmax_spec (l : List (Option ℝ)) :
    (nanargmax l = none ↔ ∀ x ∈ l, x = none) ∧
    ∀ i, nanargmax l = some i → ∃ v, l[i]? = some (some v) ∧
      (∀ (j : ℕ) w, l[j]? = some (some w) → w ≤ v) ∧
      ∀ (j : ℕ) w, j < i → l[j]? = some (some w) → w < v := by
  induction l with
  | nil => simp [nanargmax]
  | cons a l ih =>
    obtain ⟨ih1, ih2⟩ := ih
    cases a with
    | none =>
      simp only [nanargmax, Option.map_eq_none_iff, List.mem_cons, forall_eq_or_imp, true_and]
      refine ⟨ih1, fun i hi => ?_⟩
      rw [Option.map_eq_some_iff] at hi
      obtain ⟨i', hi', rfl⟩ := hi
      obtain ⟨v, h1, h2, h3⟩ := ih2 i' hi'
      refine ⟨v, by simpa using h1, fun j w hj => ?_, fun j w hji hj => ?_⟩
      · cases j with
        | zero => simp at hj
        | succ j => exact h2 j w (by simpa using hj)
      · cases j with
        | zero => simp at hj
        | succ j => exact h3 j w (by omega) (by simpa using hj)
    | some v =>
      cases hn : nanargmax l with
      | none =>
        simp only [nanargmax, hn]
        refine ⟨by simp, fun i hi => ?_⟩
        simp only [Option.some.injEq] at hi
        subst hi
        have hall := ih1.1 hn
        refine ⟨v, by simp, fun j w hj => ?_, fun j w hj => by omega⟩
        cases j with
        | zero => simp only [List.getElem?_cons_zero, Option.some.injEq] at hj; rw [hj]
        | succ j =>
          simp only [List.getElem?_cons_succ] at hj
          have := hall _ (List.mem_of_getElem? hj)
          simp at this
      | some i0 =>
        obtain ⟨u, h1, h2, h3⟩ := ih2 i0 hn
        have hu : (l.getD i0 none).getD 0 = u := by
          rw [List.getD_eq_getElem?_getD, h1]; rfl
        simp only [nanargmax, hn, hu]
        split_ifs with hle
        · refine ⟨by simp, fun i hi => ?_⟩
          simp only [Option.some.injEq] at hi
          subst hi
          refine ⟨v, by simp, fun j w hj => ?_, fun j w hj => by omega⟩
          cases j with
          | zero => simp only [List.getElem?_cons_zero, Option.some.injEq] at hj; rw [hj]
          | succ j => exact (h2 j w (by simpa using hj)).trans hle
        · push Not at hle
          refine ⟨by simp, fun i hi => ?_⟩
          simp only [Option.some.injEq] at hi
          subst hi
          refine ⟨u, by simpa using h1, fun j w hj => ?_, fun j w hji hj => ?_⟩
          · cases j with
            | zero =>
              simp only [List.getElem?_cons_zero, Option.some.injEq] at hj
              rw [← hj]; exact hle.le
            | succ j => exact h2 j w (by simpa using hj)
          · cases j with
            | zero =>
              simp only [List.getElem?_cons_zero, Option.some.injEq] at hj
              rw [← hj]; exact hle
            | succ j => exact h3 j w (by omega) (by simpa using hj)

/-- The mean ROI of a channel depends on the frequency of that channel only. -/
theorem meanRoi_own_frequency {ctx : Ctx} (hw : WF ctx) {draws : List Params}
    (hp : ∀ p ∈ draws, SlopesPos ctx p) (d : Data) (spend : T3)
    (gi ti : Option (List ℕ)) (uk : Bool) (f f' : ℕ → ℝ) (c : ℕ) (hc : c < ctx.rf.n)
    (h : f c = f' c) :
    meanRoi ctx draws d spend gi ti uk f c = meanRoi ctx draws d spend gi ti uk f' c := by
  unfold meanRoi
  refine mean_congr draws _ _ fun p hpd => ?_
  suffices he : (fun g t => incrementalOutcome ctx p (dummyMedia (atFrequency d f)) (fun _ => 0) 0 1
      (fun _ => true) true true uk g t (ctx.media.n + c))
      = fun g t => incrementalOutcome ctx p (dummyMedia (atFrequency d f')) (fun _ => 0) 0 1
      (fun _ => true) true true uk g t (ctx.media.n + c) by rw [he]
  funext g t
  have e : ctx.media.n + c = (Chan.rf c).pos ctx := rfl
  rw [e, incrementalOutcome_media hw (hp p hpd) (ch := .rf c) hc trivial,
    incrementalOutcome_media hw (hp p hpd) (ch := .rf c) hc trivial]
  have hval : ∀ s, value ctx p (scaleData ctx (treat (dummyMedia (atFrequency d f)) (.rf c) s
        (fun _ => true) true)) (nTimesOutput ctx (dummyMedia (atFrequency d f)).nMediaTimes) (.rf c) g t
      = value ctx p (scaleData ctx (treat (dummyMedia (atFrequency d f')) (.rf c) s
        (fun _ => true) true)) (nTimesOutput ctx (dummyMedia (atFrequency d f')).nMediaTimes)
        (.rf c) g t := by
    intro s
    simp only [value, treat, if_true, scaleData]
    apply adstockHillRf_congr
    · intro u
      apply scaleMedia_congr
      simp only [scaleOne, dummyMedia, atFrequency, h]
    · intro u
      simp only [dummyMedia, atFrequency, h]
  have hu : unit ctx (dummyMedia (atFrequency d f)) true uk g t
      = unit ctx (dummyMedia (atFrequency d f')) true uk g t := by
    simp only [unit, revenue, dummyMedia, atFrequency]
  rw [hval, hval, hu]

/-- **C40 (when an optimum is reported).** Exactly when there is a reach and frequency channel and the
grid of frequencies is not empty. -/
theorem optimal_freq_accepted_iff (ctx : Ctx) (draws : List Params) (d : Data) (spend : T3)
    (gi ti : Option (List ℕ)) (uk : Bool) (grid : List ℝ) :
    (∃ fs, optimalFreq ctx draws d spend gi ti uk grid = .ok fs) ↔ 0 < ctx.rf.n ∧ grid ≠ [] := by
  unfold optimalFreq
  simp only
  split_ifs with h0 h1
  · simp [h0]
  · simp only [reduceCtorEq, exists_false, false_iff, not_and]
    intro _ hne
    simp only [List.any_map, List.any_eq_true, List.mem_range, Function.comp] at h1
    obtain ⟨c, _, h1⟩ := h1
    rw [Option.isNone_iff_eq_none, (nanargmax_spec _).1] at h1
    obtain ⟨x, hx⟩ := List.exists_mem_of_ne_nil grid hne
    have := h1 _ (List.mem_map_of_mem hx)
    simp at this
  · simp only [Except.ok.injEq, exists_eq', true_iff]
    refine ⟨Nat.pos_of_ne_zero h0, ?_⟩
    rintro rfl
    apply h1
    simp only [List.map_nil, nanargmax, List.any_map, List.any_eq_true, List.mem_range,
      Function.comp]
    exact ⟨0, Nat.pos_of_ne_zero h0, rfl⟩

/-- **C40.** The frequencies reported are frequencies of the grid, one for each channel, and with all
channels at their reported frequencies at the same time, each channel has at least the mean ROI that
it has at any frequency of the grid, whatever the frequencies of the other channels. -/
theorem optimal_freq_maximises {ctx : Ctx} (hw : WF ctx) {draws : List Params}
    (hp : ∀ p ∈ draws, SlopesPos ctx p) (d : Data) (spend : T3) (gi ti : Option (List ℕ)) (uk : Bool)
    (grid fs : List ℝ) (h : optimalFreq ctx draws d spend gi ti uk grid = .ok fs) :
    fs.length = ctx.rf.n ∧ (∀ f ∈ fs, f ∈ grid) ∧
    ∀ c < ctx.rf.n, ∀ f' : ℕ → ℝ, f' c ∈ grid →
      meanRoi ctx draws d spend gi ti uk f' c
        ≤ meanRoi ctx draws d spend gi ti uk (fun c => fs.getD c 0) c := by
  unfold optimalFreq at h
  simp only at h
  split_ifs at h with h0 h1
  simp only [Except.ok.injEq] at h
  have hcol : ∀ c < ctx.rf.n, ∃ i, nanargmax (grid.map fun f =>
      some (meanRoi ctx draws d spend gi ti uk (fun _ => f) c)) = some i := by
    intro c hc
    cases hn : nanargmax (grid.map fun f =>
      some (meanRoi ctx draws d spend gi ti uk (fun _ => f) c)) with
    | some i => exact ⟨i, rfl⟩
    | none =>
      exfalso
      apply h1
      simp only [List.any_map, List.any_eq_true, List.mem_range, Function.comp]
      exact ⟨c, hc, by rw [hn]; rfl⟩
  have hget : ∀ c < ctx.rf.n, ∃ i, nanargmax (grid.map fun f =>
      some (meanRoi ctx draws d spend gi ti uk (fun _ => f) c)) = some i ∧
      fs[c]? = some (grid.getD i 0) := by
    intro c hc
    obtain ⟨i, hi⟩ := hcol c hc
    refine ⟨i, hi, ?_⟩
    rw [← h]
    simp [hc, hi]
  have hmax : ∀ c < ctx.rf.n, ∃ f ∈ grid, fs[c]? = some f ∧ ∀ f' ∈ grid,
      meanRoi ctx draws d spend gi ti uk (fun _ => f') c
        ≤ meanRoi ctx draws d spend gi ti uk (fun _ => f) c := by
    intro c hc
    obtain ⟨i, hi, hf⟩ := hget c hc
    obtain ⟨v, hv, hle, -⟩ := (nanargmax_spec _).2 i hi
    rw [List.getElem?_map, Option.map_eq_some_iff] at hv
    obtain ⟨f, hfi, hv⟩ := hv
    simp only [Option.some.injEq] at hv
    refine ⟨f, List.mem_of_getElem? hfi, ?_, ?_⟩
    · rw [hf, List.getD_eq_getElem?_getD, hfi]; rfl
    · intro f' hf'
      obtain ⟨j, hj⟩ := List.mem_iff_getElem?.1 hf'
      rw [hv]
      exact hle j _ (by rw [List.getElem?_map, hj]; rfl)
  have hlen : fs.length = ctx.rf.n := by rw [← h]; simp
  refine ⟨hlen, ?_, ?_⟩
  · intro f hf
    obtain ⟨c, hc⟩ := List.mem_iff_getElem?.1 hf
    have hc' : c < ctx.rf.n := by
      rw [← hlen]; exact (List.getElem?_eq_some_iff.1 hc).1
    obtain ⟨f0, hf0, e, -⟩ := hmax c hc'
    rw [hc] at e
    cases e
    exact hf0
  · intro c hc f' hf'
    obtain ⟨f0, hf0, e, hle⟩ := hmax c hc
    rw [meanRoi_own_frequency hw hp d spend gi ti uk f' (fun _ => f' c) c hc rfl,
      meanRoi_own_frequency hw hp d spend gi ti uk (fun c => fs.getD c 0) (fun _ => f0) c hc (by
        rw [List.getD_eq_getElem?_getD, e]; rfl)]
    exact hle _ hf'

/-! ### Concrete cases -/

theorem demo_dataOk : DataOk (Mmm.Props.demo .hill) (Mmm.Props.demo .hill).data := by
  constructor <;> intros <;> simp only [Mmm.Props.demo, revenue] <;> positivity

theorem demo_paramsOk : ParamsOk (Mmm.Props.demoParams 1) (.media 0) ∧
    ParamsOk (Mmm.Props.demoParams 1) (.rf 0) := by
  simp [ParamsOk, Mmm.Props.demoParams]

/-- The hypotheses of the theorems are met by a case that is not trivial: the curve of `demo` rises. -/
example : DataOk (Mmm.Props.demo .hill) (Mmm.Props.demo .hill).data ∧
    (∀ p ∈ [Mmm.Props.demoParams 1], ParamsOk p (.media 0)) ∧
    Metrics.Props.demoSel.Resolves (Mmm.Props.demo .hill) (some [1]) none ∧
    (∃ ys, responseCurve (Mmm.Props.demo .hill) [Mmm.Props.demoParams 1] (Mmm.Props.demo .hill).data
      (some [1]) none true false 0 [0, 1, 2] = .ok ys) ∧
    (∃ fs, optimalFreq (Mmm.Props.demo .hill) [Mmm.Props.demoParams 1] (Mmm.Props.demo .hill).data
      (fun _ _ _ => 1) (some [1]) none false [1, 2, 3] = .ok fs) := by
  refine ⟨demo_dataOk, by simpa using demo_paramsOk.1, Metrics.Props.demo_resolves, ?_, ?_⟩
  · rw [curve_accepted_iff]
    simp
  · rw [optimal_freq_accepted_iff]
    simp [Mmm.Props.demo]

end Verif.Curves.Props
