import Mathlib.Tactic
import Verif.Spec.Health
import Verif.Props.Review

/-!
# C67: the health score
-/

namespace Verif.Health.Props

open Verif.Accuracy (Fl)
open Verif.Review Verif.Review.Spec Verif.Review.Props
open Verif.Health

/-! ## The components -/

/-- The baseline score falls linearly from 100 to 0 between the thresholds. -/
theorem baseline_score {c : BaselineConfig} (h : c.review < c.fail) (p : ℚ) :
    baselineScore c p = some (Spec.baseline c.review c.fail p) := by
  have hd : (0 : ℚ) < c.fail - c.review := sub_pos.2 h
  have hdr : (0 : ℝ) < (c.fail : ℝ) - c.review := by
    have : ((c.review : ℚ) : ℝ) < (c.fail : ℚ) := by exact_mod_cast h
    linarith
  unfold baselineScore Spec.baseline
  rw [if_neg h.ne']
  congr 1
  have e : (((p - c.review) / (c.fail - c.review) : ℚ) : ℝ) =
      ((p : ℝ) - c.review) / ((c.fail : ℝ) - c.review) := by push_cast; rfl
  rw [e]
  unfold clip01
  by_cases h1 : (p : ℝ) ≤ c.review
  · rw [if_pos h1, max_eq_left (div_nonpos_of_nonpos_of_nonneg (by linarith) hdr.le)]
    norm_num
  · rw [if_neg h1]
    push Not at h1
    rw [max_eq_right (div_nonneg (by linarith) hdr.le)]
    by_cases h2 : (c.fail : ℝ) ≤ p
    · rw [if_pos h2, min_eq_left]
      · norm_num
      · rw [le_div_iff₀ hdr]; linarith
    · rw [if_neg h2]
      push Not at h2
      rw [min_eq_right]
      · field_simp; ring
      · rw [div_le_iff₀ hdr]; linarith

theorem baseline_range {a b : ℝ} (h : a < b) (p : ℝ) :
    0 ≤ Spec.baseline a b p ∧ Spec.baseline a b p ≤ 100 := by
  unfold Spec.baseline
  split
  · norm_num
  · rename_i h1
    push Not at h1
    split
    · norm_num
    · rename_i h2
      push Not at h2
      have hd : 0 < b - a := sub_pos.2 h
      refine ⟨div_nonneg (mul_nonneg (by norm_num) (by linarith)) hd.le, ?_⟩
      rw [div_le_iff₀ hd]
      nlinarith

/-- A higher probability of a negative baseline never gives a higher score. -/
theorem baseline_antitone {a b : ℝ} (h : a < b) : Antitone (Spec.baseline a b) := by
  intro p q hpq
  have hd : 0 < b - a := sub_pos.2 h
  have hp := baseline_range h p
  have hq := baseline_range h q
  by_cases h1 : p ≤ a
  · have : Spec.baseline a b p = 100 := if_pos h1
    rw [this]; exact hq.2
  · by_cases h2 : b ≤ q
    · have : Spec.baseline a b q = 0 := by
        unfold Spec.baseline
        rw [if_neg (by push Not at h1 ⊢; linarith), if_pos h2]
      rw [this]; exact hp.1
    · push Not at h1 h2
      unfold Spec.baseline
      rw [if_neg (by linarith), if_neg (by linarith), if_neg (by linarith), if_neg (by linarith)]
      rw [div_le_div_iff_of_pos_right hd]
      linarith

/-- The goodness-of-fit score is a logistic function of R-squared. -/
theorem gof_score (r : ℚ) : gofScore (.fin r) = some (Spec.fit r) := by
  unfold gofScore Spec.fit
  have : (-15 * ((r : ℝ) - 1 / 2)) = 15 / 2 - 15 * r := by ring
  simp only [this]

theorem fit_range (r : ℝ) : 0 < Spec.fit r ∧ Spec.fit r < 100 := by
  have h := Real.exp_pos (15 / 2 - 15 * r)
  unfold Spec.fit
  constructor
  · positivity
  · rw [div_lt_iff₀ (by linarith)]; linarith

/-- A better fit gives a higher score. -/
theorem fit_strictMono : StrictMono Spec.fit := by
  intro a b hab
  unfold Spec.fit
  have h : Real.exp (15 / 2 - 15 * b) < Real.exp (15 / 2 - 15 * a) :=
    Real.exp_lt_exp.2 (by linarith)
  have := Real.exp_pos (15 / 2 - 15 * b)
  exact div_lt_div_of_pos_left (by norm_num) (by linarith) (by linarith)

/-- The score of a check of channels is a power of the share of the channels that pass. -/
theorem ratio_score {f t : ℕ} (h : f ≤ t) : ratioScore f t = Spec.passing (t - f) t := by
  unfold ratioScore Spec.passing
  by_cases h0 : t = 0
  · rw [if_pos h0, if_pos h0]
  · rw [if_neg h0, if_neg h0]
    have ht : (0 : ℝ) < t := by exact_mod_cast Nat.pos_of_ne_zero h0
    have hf : (f : ℝ) ≤ t := by exact_mod_cast h
    have e : clip01 ((f : ℝ) / t) = f / t := by
      unfold clip01
      rw [max_eq_right (by positivity), min_eq_right]
      rw [div_le_iff₀ ht]; linarith
    rw [e, Nat.cast_sub h]
    congr 2
    field_simp

theorem passing_range {p t : ℕ} (h : p ≤ t) : 0 ≤ Spec.passing p t ∧ Spec.passing p t ≤ 100 := by
  unfold Spec.passing
  split
  · norm_num
  · rename_i h0
    have ht : (0 : ℝ) < t := by exact_mod_cast Nat.pos_of_ne_zero h0
    have hp : (p : ℝ) / t ≤ 1 := by rw [div_le_one ht]; exact_mod_cast h
    have h1 : ((p : ℝ) / t) ^ (2 / 5 : ℝ) ≤ 1 := Real.rpow_le_one (by positivity) hp (by norm_num)
    have h2 : 0 ≤ ((p : ℝ) / t) ^ (2 / 5 : ℝ) := Real.rpow_nonneg (by positivity) _
    constructor <;> linarith

/-- More passing channels give a higher score. -/
theorem passing_strictMono {p q t : ℕ} (h : p < q) (ht : q ≤ t) :
    Spec.passing p t < Spec.passing q t := by
  have h0 : t ≠ 0 := by omega
  unfold Spec.passing
  rw [if_neg h0, if_neg h0]
  have ht' : (0 : ℝ) < t := by exact_mod_cast Nat.pos_of_ne_zero h0
  have : (p : ℝ) / t < q / t := by
    rw [div_lt_div_iff_of_pos_right ht']; exact_mod_cast h
  have := Real.rpow_lt_rpow (by positivity) this (by norm_num : (0 : ℝ) < 2 / 5)
  linarith

/-! ## The weighted mean -/

theorem sumScore_bounds {l : List (Option ℝ × ℚ)} (hw : ∀ p ∈ l, 0 < p.2)
    (hs : ∀ p ∈ l, ∃ x, p.1 = some x ∧ 0 ≤ x ∧ x ≤ 100) :
    ∃ y, sumScore l = some y ∧ 0 ≤ y ∧ y ≤ 100 * (((l.map Prod.snd).sum : ℚ) : ℝ) ∧
      ((∃ p ∈ l, ∃ x, p.1 = some x ∧ 0 < x) → 0 < y) ∧
      ((∃ p ∈ l, ∃ x, p.1 = some x ∧ x < 100) → y < 100 * (((l.map Prod.snd).sum : ℚ) : ℝ)) := by
  induction l with
  | nil => exact ⟨0, rfl, le_refl _, by simp, by simp, by simp⟩
  | cons a l ih =>
    obtain ⟨y, hy, h0, h1, h2, h3⟩ := ih (fun p hp => hw p (List.mem_cons_of_mem _ hp))
      (fun p hp => hs p (List.mem_cons_of_mem _ hp))
    obtain ⟨s, w⟩ := a
    obtain ⟨x, hx, hx0, hx1⟩ := hs (s, w) (by simp)
    simp only at hx
    subst hx
    have hw' : (0 : ℝ) < (w : ℝ) := by exact_mod_cast hw (some x, w) (by simp)
    refine ⟨x * w + y, by simp [sumScore, hy], by positivity, ?_, ?_, ?_⟩
    · simp only [List.map_cons, List.sum_cons, Rat.cast_add]
      nlinarith
    · rintro ⟨p, hp, x', hx', hpos⟩
      rcases List.mem_cons.1 hp with rfl | hp
      · cases hx'
        have := mul_pos hpos hw'
        linarith
      · have := h2 ⟨p, hp, x', hx', hpos⟩
        have := mul_nonneg hx0 hw'.le
        linarith
    · rintro ⟨p, hp, x', hx', hlt⟩
      simp only [List.map_cons, List.sum_cons, Rat.cast_add]
      rcases List.mem_cons.1 hp with rfl | hp
      · cases hx'
        have := mul_lt_mul_of_pos_right hlt hw'
        linarith
      · have := h3 ⟨p, hp, x', hx', hlt⟩
        have := mul_le_mul_of_nonneg_right hx1 hw'.le
        linarith

theorem mean_bounds {l : List (Option ℝ × ℚ)} (hw : ∀ p ∈ l, 0 < p.2)
    (hs : ∀ p ∈ l, ∃ x, p.1 = some x ∧ 0 ≤ x ∧ x ≤ 100)
    (hg : ∃ p ∈ l, ∃ x, p.1 = some x ∧ 0 < x ∧ x < 100) :
    ∃ y, weightedMean l = some y ∧ 0 < y ∧ y < 100 := by
  obtain ⟨y, hy, h0, h1, h2, h3⟩ := sumScore_bounds hw hs
  obtain ⟨p, hp, x, hx, hx0, hx1⟩ := hg
  have h2' := h2 ⟨p, hp, x, hx, hx0⟩
  have h3' := h3 ⟨p, hp, x, hx, hx1⟩
  have hW : (0 : ℝ) < (((l.map Prod.snd).sum : ℚ) : ℝ) := by linarith
  have hWq : (l.map Prod.snd).sum ≠ 0 := by
    intro hc
    rw [hc] at hW
    simp at hW
  refine ⟨y / ((l.map Prod.snd).sum : ℚ), ?_, by positivity, ?_⟩
  · unfold weightedMean
    rw [if_neg hWq, hy]; rfl
  · rw [div_lt_iff₀ hW]; exact h3'

/-! ## The range of the score -/

theorem lookup_mem {rs : List Result} {i : CheckId} {r : Result} (h : lookup rs i = some r) :
    r ∈ rs ∧ r.id = i := by
  have := List.mem_of_getLast? h
  obtain ⟨h1, h2⟩ := List.mem_filter.1 this
  exact ⟨h1, by simpa using h2⟩

theorem lookup_some {rs : List Result} {i : CheckId} (h : ∃ r ∈ rs, r.id = i) :
    ∃ r, lookup rs i = some r := by
  obtain ⟨r, hr, hi⟩ := h
  have hne : (rs.filter fun r => r.id == i) ≠ [] := by
    intro hc
    have : r ∈ (rs.filter fun r => r.id == i) := List.mem_filter.2 ⟨hr, by simp [hi]⟩
    rw [hc] at this; cases this
  exact ⟨_, List.getLast?_eq_some_getLast hne⟩

/-- A result that a run of the review can have: the numbers of failing channels and the scores fit
together, the thresholds of the baseline are in order and R-squared is a number. -/
theorem score_range {w : World} {c : Check} {r : Result} (h : w.runCheck c = .ok r)
    (hb : ∀ b, c = .baseline b → b.review < b.fail) {q : ℚ} (hr : w.rsq.all = .fin q)
    (hc : c.id ∈ [CheckId.baseline, .ppp, .gof, .pps, .roi]) (hno : ∀ i, c ≠ .other i) :
    ∃ x, score r = some x ∧ 0 ≤ x ∧ x ≤ 100 ∧ (c.id = .gof → 0 < x ∧ x < 100) := by
  cases c with
  | baseline b =>
    cases h
    obtain ⟨h1, h2⟩ := baseline_range (a := (b.review : ℝ)) (b := b.fail)
      (by exact_mod_cast hb b rfl) (negativeProb w.baseline : ℚ)
    exact ⟨_, baseline_score (hb b rfl) _, h1, h2, by simp [Check.id]⟩
  | ppp t =>
    cases h
    refine ⟨_, rfl, ?_, ?_, by simp [Check.id]⟩ <;>
    · unfold pppScore; split <;> norm_num
  | gof t =>
    cases h
    obtain ⟨h1, h2⟩ := fit_range (q : ℝ)
    refine ⟨_, ?_, h1.le, h2.le, fun _ => ⟨h1, h2⟩⟩
    simp only [score, hr]
    exact gof_score q
  | pps c a s =>
    simp only [World.runCheck] at h
    split at h
    · cases h
    · cases h
      have hle : ∀ l : List (String × Bool), (noShift l).length ≤ l.length := by
        intro l
        rw [noShift, List.length_map]
        exact List.length_filter_le _ _
      obtain ⟨h1, h2⟩ := passing_range (Nat.sub_le _ _)
      exact ⟨_, congrArg some (ratio_score (hle _)), h1, h2, by simp [Check.id]⟩
  | roi c =>
    simp only [World.runCheck] at h
    split at h
    · cases h
    · cases h
      obtain ⟨h1, h2⟩ := passing_range (Nat.sub_le _ _)
      exact ⟨_, congrArg some (ratio_score List.countP_le_length), h1, h2, by simp [Check.id]⟩
  | other i => exact absurd rfl (hno i)

/-- A battery in which the component checks are real checks, and the thresholds of the baseline are
in order. -/
def BatteryOk (battery : List Check) : Prop :=
  ∀ c ∈ battery, (∀ b, c = .baseline b → b.review < b.fail) ∧
    ∀ i, c = .other i → i ∉ [CheckId.convergence, .baseline, .ppp, .gof, .pps, .roi]

theorem defaultBattery_ok : BatteryOk defaultBattery := by
  intro c hc
  simp only [defaultBattery, List.mem_cons, List.not_mem_nil, or_false] at hc
  rcases hc with rfl | rfl | rfl | rfl | rfl
  · exact ⟨fun b hb => (by cases hb; norm_num), fun i hi => (by cases hi)⟩
  all_goals exact ⟨fun b hb => (by cases hb), fun i hi => (by cases hi)⟩

/-- The health score of a review: zero if the model did not converge, otherwise above zero and below
one hundred, which is never reached. -/
theorem health_range {w : World} {conv : Verif.Rhat.Config} {battery : List Check} {s : Summary}
    (hB : BatteryOk battery) {q : ℚ} (hr : w.rsq.all = .fin q) (h : w.run conv battery = .ok s) :
    ∃ x, health s = some x ∧
      ((Verif.Rhat.check conv w.rhat).case = .notConverged → x = 0) ∧
      ((Verif.Rhat.check conv w.rhat).case ≠ .notConverged → 0 < x ∧ x < 100) := by
  by_cases hc : (Verif.Rhat.check conv w.rhat).case = .notConverged
  · rw [not_converged_stops _ hc] at h
    cases h
    exact ⟨0, by simp [health, stopped, hc], fun _ => rfl, fun h => absurd hc h⟩
  · obtain ⟨rs, h1, h2, -⟩ := review_results hc h
    have hsrc : ∀ r ∈ rs, ∃ c ∈ battery, w.runCheck c = .ok r := by
      intro r hr
      obtain ⟨c, hcm, hcr⟩ := run_source h2 hr
      exact ⟨c, (List.mem_filter.1 hcm).1, hcr⟩
    have hnc : ∀ r ∈ rs, r.id ≠ .convergence := by
      intro r hr' hid
      obtain ⟨c, hcm, hcr⟩ := hsrc r hr'
      rw [runCheck_id hcr] at hid
      cases c with
      | other i => exact (hB _ hcm).2 i rfl (by simp only [Check.id] at hid; simp [hid])
      | _ => cases hid
    have hno : s.results.any stopped = false := by
      rw [h1, List.any_cons, Bool.or_eq_false_iff]
      refine ⟨by simpa [stopped] using hc, ?_⟩
      rw [List.any_eq_false]
      intro r hr'
      cases r with
      | convergence c => exact absurd rfl (hnc _ hr')
      | _ => simp [stopped]
    have hcomp : ∀ i ∈ [CheckId.baseline, .ppp, .gof, .pps, .roi], ∀ r,
        lookup s.results i = some r →
        ∃ x, score r = some x ∧ 0 ≤ x ∧ x ≤ 100 ∧ (i = .gof → 0 < x ∧ x < 100) := by
      intro i hi r hlk
      obtain ⟨hm, hid⟩ := lookup_mem hlk
      rw [h1] at hm
      rcases List.mem_cons.1 hm with rfl | hm
      · simp only [Result.id] at hid
        subst hid
        simp at hi
      · obtain ⟨c, hcm, hcr⟩ := hsrc r hm
        have hci : c.id = i := by rw [← runCheck_id hcr, hid]
        have := score_range hcr (hB c hcm).1 hr (by rw [hci]; exact hi) (by
          rintro j rfl
          refine (hB _ hcm).2 j rfl ?_
          have hj : j = i := hci
          rw [hj]
          exact List.mem_cons_of_mem _ hi)
        rw [hci] at this
        exact this
    have hgof : ∃ r, lookup s.results .gof = some r := by
      apply lookup_some
      by_contra hx
      push Not at hx
      have : ∀ c ∈ battery.filter (fun c => w.relevant c.id), c.id ≠ .gof := by
        intro c hcm hid
        have h3 := run_ids h2
        have : c.id ∈ rs.map Result.id := by
          rw [h3]; exact List.mem_map_of_mem hcm
        obtain ⟨r, hrm, hri⟩ := List.mem_map.1 this
        exact hx r (by rw [h1]; exact List.mem_cons_of_mem _ hrm) (hri.trans hid)
      obtain ⟨e, he⟩ := battery_needs_required (battery := battery) hc (i := .gof)
        (by simp [required]) (fun c hcm hid =>
          this c (List.mem_filter.2 ⟨hcm, by rw [hid]; rfl⟩) hid)
      rw [he] at h; cases h
    have hmem : ∀ p ∈ scoresAndWeights s.results, ∃ i wt r, (i, wt) ∈ weights ∧
        lookup s.results i = some r ∧ p = (score r, wt) := by
      intro p hp
      obtain ⟨⟨i, wt⟩, h3, h4⟩ := List.mem_filterMap.1 hp
      simp only [Option.map_eq_some_iff] at h4
      obtain ⟨r, h5, h6⟩ := h4
      exact ⟨i, wt, r, h3, h5, h6.symm⟩
    have hiw : ∀ i wt, (i, wt) ∈ weights →
        0 < wt ∧ i ∈ [CheckId.baseline, .ppp, .gof, .pps, .roi] := by
      intro i wt hm
      simp only [weights, List.mem_cons, Prod.mk.injEq, List.not_mem_nil, or_false] at hm
      rcases hm with ⟨rfl, rfl⟩ | ⟨rfl, rfl⟩ | ⟨rfl, rfl⟩ | ⟨rfl, rfl⟩ | ⟨rfl, rfl⟩ <;>
        exact ⟨by norm_num, by simp⟩
    obtain ⟨y, hy, hy0, hy1⟩ := mean_bounds (l := scoresAndWeights s.results)
      (by
        intro p hp
        obtain ⟨i, wt, r, h3, -, rfl⟩ := hmem p hp
        exact (hiw i wt h3).1)
      (by
        intro p hp
        obtain ⟨i, wt, r, h3, h4, rfl⟩ := hmem p hp
        obtain ⟨x, hx, hx0, hx1, -⟩ := hcomp i (hiw i wt h3).2 r h4
        exact ⟨x, hx, hx0, hx1⟩)
      (by
        obtain ⟨r, hlk⟩ := hgof
        obtain ⟨x, hx, -, -, hx2⟩ := hcomp .gof (by simp) r hlk
        refine ⟨(score r, 10 / 100), ?_, x, hx, hx2 rfl⟩
        refine List.mem_filterMap.2 ⟨(.gof, 10 / 100), by simp [weights], ?_⟩
        simp [hlk])
    refine ⟨y, ?_, fun h => absurd h hc, fun _ => ⟨hy0, hy1⟩⟩
    unfold health
    rw [hno, if_neg (by simp)]
    exact hy

example : exWorld.rsq.all = .fin (1 / 2) ∧ BatteryOk defaultBattery ∧
    ∃ s, exWorld.run defaultConvergence defaultBattery = .ok s :=
  ⟨rfl, defaultBattery_ok, (default_review_iff (by decide +kernel)).2 (.inl (by decide +kernel))⟩

/-! ## The score of the default review -/

theorem forall₂_cons_elim {α β : Type} {R : α → β → Prop} {a : α} {l : List α} {rs : List β}
    (h : List.Forall₂ R (a :: l) rs) : ∃ b rs', rs = b :: rs' ∧ R a b ∧ List.Forall₂ R l rs' := by
  cases h with
  | cons h1 h2 => exact ⟨_, _, rfl, h1, h2⟩

/-- The results of the first three checks of the default review. -/
theorem default_results {w : World} {conv : Verif.Rhat.Config} {s : Summary}
    (hc : (Verif.Rhat.check conv w.rhat).case ≠ .notConverged)
    (h : w.run conv defaultBattery = .ok s) :
    ∃ rest, s.results = .convergence (Verif.Rhat.check conv w.rhat) ::
        .baseline (baselineStatus ⟨1 / 5, 4 / 5⟩ (negativeProb w.baseline)) ⟨1 / 5, 4 / 5⟩
          (negativeProb w.baseline) ::
        .ppp (pppStatus (1 / 20) (pppValue w.actual w.expected)) (1 / 20)
          (pppValue w.actual w.expected) ::
        .gof (gofStatus (.fin 0) w.rsq) w.rsq :: rest ∧
      List.Forall₂ (fun c r => w.runCheck c = .ok r)
        ([Check.pps ⟨none, none⟩ (1 / 20) 42, .roi ⟨none, none⟩].filter
          fun c => w.relevant c.id) rest := by
  obtain ⟨rs, h1, h2, -⟩ := review_results hc h
  have hf : (defaultBattery.filter fun c => w.relevant c.id) =
      .baseline ⟨1 / 5, 4 / 5⟩ :: .ppp (1 / 20) :: .gof (.fin 0) ::
      [Check.pps ⟨none, none⟩ (1 / 20) 42, .roi ⟨none, none⟩].filter
        fun c => w.relevant c.id := by
    unfold defaultBattery
    rw [List.filter_cons_of_pos rfl, List.filter_cons_of_pos rfl, List.filter_cons_of_pos rfl]
  rw [hf] at h2
  obtain ⟨r1, rs1, rfl, a1, h2⟩ := forall₂_cons_elim h2
  obtain ⟨r2, rs2, rfl, a2, h2⟩ := forall₂_cons_elim h2
  obtain ⟨r3, rs3, rfl, a3, h2⟩ := forall₂_cons_elim h2
  simp only [World.runCheck, Except.ok.injEq] at a1 a2 a3
  exact ⟨rs3, by rw [h1, ← a1, ← a2, ← a3], h2⟩

/-- The three scores of the whole model, from what is known of the model: the share of draws with a
negative baseline, the posterior predictive p-value, R-squared. -/
noncomputable def modelPart (w : World) (q : ℚ) : ℝ :=
  3 * Spec.baseline (1 / 5) (4 / 5) (negativeProb w.baseline : ℚ) +
    3 * (if 1 / 20 < pppValue w.actual w.expected then 100 else 0) + Spec.fit q

theorem baseline_default (st : Status) (p : ℚ) : score (.baseline st ⟨1 / 5, 4 / 5⟩ p) =
    some (Spec.baseline (1 / 5) (4 / 5) p) := by
  rw [score, baseline_score (by norm_num)]
  norm_num

theorem id_conv (c : Verif.Rhat.Result) : (Result.convergence c).id = .convergence := rfl
theorem id_baseline (s : Status) (b : BaselineConfig) (p : ℚ) :
    (Result.baseline s b p).id = .baseline := rfl
theorem id_ppp (s : Status) (t p : ℚ) : (Result.ppp s t p).id = .ppp := rfl
theorem id_gof (s : Status) (r : Rsq) : (Result.gof s r).id = .gof := rfl
theorem stopped_baseline (s : Status) (b : BaselineConfig) (p : ℚ) :
    stopped (.baseline s b p) = false := rfl
theorem stopped_ppp (s : Status) (t p : ℚ) : stopped (.ppp s t p) = false := rfl
theorem stopped_gof (s : Status) (r : Rsq) : stopped (.gof s r) = false := rfl

theorem scores_default (c : Verif.Rhat.Result) (s1 s2 s3 : Status) (b : BaselineConfig) (p1 t p2 : ℚ)
    (rsq : Rsq) (rest : List Result)
    (hr : ∀ r ∈ rest, r.id ∉ [CheckId.baseline, .ppp, .gof]) :
    scoresAndWeights (.convergence c :: .baseline s1 b p1 :: .ppp s2 t p2 :: .gof s3 rsq :: rest) =
      [(baselineScore b p1, 30 / 100), (some (pppScore t p2), 30 / 100),
        (gofScore rsq.all, 10 / 100)] ++
      ((lookup rest .pps).map fun r => (score r, (15 / 100 : ℚ))).toList ++
      ((lookup rest .roi).map fun r => (score r, (15 / 100 : ℚ))).toList := by
  have hz : ∀ i ∈ [CheckId.baseline, .ppp, .gof], (rest.filter fun r => r.id == i) = [] := by
    intro i hi
    rw [List.filter_eq_nil_iff]
    intro r hrm hx
    have : r.id = i := by simpa using hx
    exact hr r hrm (this ▸ hi)
  have l1 : lookup (.convergence c :: .baseline s1 b p1 :: .ppp s2 t p2 :: .gof s3 rsq :: rest)
      .baseline = some (.baseline s1 b p1) := by
    have := hz .baseline (by simp)
    simp [lookup, id_conv, id_baseline, id_ppp, id_gof, this]
  have l2 : lookup (.convergence c :: .baseline s1 b p1 :: .ppp s2 t p2 :: .gof s3 rsq :: rest)
      .ppp = some (.ppp s2 t p2) := by
    have := hz .ppp (by simp)
    simp [lookup, id_conv, id_baseline, id_ppp, id_gof, this]
  have l3 : lookup (.convergence c :: .baseline s1 b p1 :: .ppp s2 t p2 :: .gof s3 rsq :: rest)
      .gof = some (.gof s3 rsq) := by
    have := hz .gof (by simp)
    simp [lookup, id_conv, id_baseline, id_ppp, id_gof, this]
  have l4 : lookup (.convergence c :: .baseline s1 b p1 :: .ppp s2 t p2 :: .gof s3 rsq :: rest)
      .pps = lookup rest .pps := by
    simp [lookup, Result.id]
  have l5 : lookup (.convergence c :: .baseline s1 b p1 :: .ppp s2 t p2 :: .gof s3 rsq :: rest)
      .roi = lookup rest .roi := by
    simp [lookup, Result.id]
  unfold scoresAndWeights weights
  simp only [List.filterMap_cons, List.filterMap_nil, l1, l2, l3, l4, l5, Option.map_some, score]
  cases lookup rest .pps <;> cases lookup rest .roi <;> rfl

theorem filter_default (w : World) :
    ([Check.pps ⟨none, none⟩ (1 / 20) 42, .roi ⟨none, none⟩].filter fun c => w.relevant c.id) =
      (if w.usesRoi then [Check.pps ⟨none, none⟩ (1 / 20) 42] else []) ++
        (if w.usesRoi && w.customRoi then [Check.roi ⟨none, none⟩] else []) := by
  cases hu : w.usesRoi <;> cases hcu : w.customRoi <;>
    simp [World.relevant, Check.id, hu, hcu]

theorem not_stopped {w : World} {conv : Verif.Rhat.Config}
    (hc : (Verif.Rhat.check conv w.rhat).case ≠ .notConverged) :
    stopped (.convergence (Verif.Rhat.check conv w.rhat)) = false := by
  simpa [stopped] using hc

/-- Without priors on ROI the health score is three sevenths baseline, three sevenths p-value and one
seventh fit. -/
theorem health_without_roi {w : World} {conv : Verif.Rhat.Config} {s : Summary}
    (hc : (Verif.Rhat.check conv w.rhat).case ≠ .notConverged)
    (hg : ∀ g ∈ w.groups, g.roiPrior = false) {q : ℚ} (hr : w.rsq.all = .fin q)
    (h : w.run conv defaultBattery = .ok s) : health s = some (modelPart w q / 7) := by
  obtain ⟨rest, h1, h2⟩ := default_results hc h
  have hu : w.usesRoi = false := by
    rw [← Bool.not_eq_true, usesRoi_iff]
    rintro ⟨g, hg', hx⟩
    rw [hg g hg'] at hx; cases hx
  rw [filter_default, hu] at h2
  simp only [Bool.false_eq_true, if_false, Bool.false_and, List.append_nil,
    List.forall₂_nil_left_iff] at h2
  subst h2
  have hst : s.results.any stopped = false := by
    rw [h1]
    simp only [List.any_cons, List.any_nil, not_stopped hc, stopped_baseline, stopped_ppp, stopped_gof,
      Bool.or_self]
  unfold health
  rw [hst, if_neg (by simp), h1, scores_default _ _ _ _ _ _ _ _ _ _ (by simp), hr, gof_score]
  have hb := baseline_default .pass (negativeProb w.baseline)
  simp only [score] at hb
  rw [hb]
  simp only [lookup, List.filter_nil, List.getLast?_nil, Option.map_none, Option.toList_none,
    List.append_nil]
  unfold weightedMean
  rw [if_neg (by norm_num)]
  simp only [sumScore, Option.map_some, Option.some.injEq, modelPart, pppScore, List.map_cons,
    List.map_nil, List.sum_cons, List.sum_nil]
  push_cast
  ring

/-- The number of channels for which the shift check of the default review found a shift. -/
def shiftedChannels (w : World) : ℕ :=
  (((w.media.toList.flatMap fun g => g.shifts (1 / 20) (w.boots 42).1) ++
    w.rf.toList.flatMap fun g => g.shifts (1 / 20) (w.boots 42).2).filter Prod.snd).length

/-- The number of channels that pass the ROI consistency check. -/
def consistentChannels (w : World) : ℕ :=
  ((roiChannels w.groups).filter fun p => decide (p.2 = .pass)).length

theorem length_compl {α : Type} (l : List α) (p : α → Bool) :
    l.length - (l.filter fun x => !p x).length = (l.filter p).length := by
  induction l with
  | nil => rfl
  | cons a l ih =>
    have := List.length_filter_le (fun x => !p x) l
    cases hp : p a <;> simp [hp] <;> omega

theorem pps_score {w : World} {r : Result}
    (h : w.runCheck (.pps ⟨none, none⟩ (1 / 20) 42) = .ok r) :
    score r = some (Spec.passing (shiftedChannels w) (nChannels w)) ∧ stopped r = false := by
  simp only [World.runCheck] at h
  split at h
  · cases h
  · cases h
    refine ⟨?_, rfl⟩
    simp only [score]
    rw [ratio_score (by rw [noShift, List.length_map]; exact List.length_filter_le _ _), shifts_count]
    congr 2
    unfold shiftedChannels
    rw [noShift, List.length_map]
    conv_lhs => rw [← shifts_count w (1 / 20) (w.boots 42).1 (w.boots 42).2]
    exact length_compl _ _

theorem roi_score {w : World} {r : Result} (h : w.runCheck (.roi ⟨none, none⟩) = .ok r) :
    score r = some (Spec.passing (consistentChannels w) (nChannels w)) ∧ stopped r = false := by
  simp only [World.runCheck] at h
  split at h
  · cases h
  · cases h
    refine ⟨?_, rfl⟩
    simp only [score]
    have hn : (roiChannels w.groups).length = nChannels w := by
      have := (roi_one_each w.groups).length_eq
      rw [List.length_map] at this
      exact this
    rw [ratio_score List.countP_le_length, hn]
    congr 2
    unfold consistentChannels
    have hp : (fun p : String × RoiCase => !roiPass p.2) =
        fun p => !decide (p.2 = RoiCase.pass) := by
      funext p
      cases p.2 <;> rfl
    rw [List.countP_eq_length_filter, hp, ← hn, length_compl]

/-- With default priors on ROI the shift check counts fifteen hundredths beside thirty, thirty and
ten for baseline, p-value and fit. -/
theorem health_default_roi {w : World} {conv : Verif.Rhat.Config} {s : Summary}
    (hc : (Verif.Rhat.check conv w.rhat).case ≠ .notConverged)
    (hg : ∃ g ∈ w.groups, g.roiPrior = true)
    (hn : ∀ g ∈ w.groups, g.roiPrior = true → g.custom = false) {q : ℚ} (hr : w.rsq.all = .fin q)
    (h : w.run conv defaultBattery = .ok s) :
    health s = some ((10 * modelPart w q + 15 * Spec.passing (shiftedChannels w) (nChannels w)) / 85) := by
  obtain ⟨rest, h1, h2⟩ := default_results hc h
  have hu := (usesRoi_iff w).2 hg
  have hcu : w.customRoi = false := by
    rw [← Bool.not_eq_true, customRoi_iff]
    rintro ⟨g, hg', hx, hy⟩
    rw [hn g hg' hx] at hy; cases hy
  rw [filter_default, hu, hcu] at h2
  simp only [if_true, Bool.true_and, Bool.false_eq_true, if_false, List.append_nil] at h2
  obtain ⟨r, rs', rfl, a, h2⟩ := forall₂_cons_elim h2
  rw [List.forall₂_nil_left_iff] at h2
  subst h2
  obtain ⟨hs, hst'⟩ := pps_score a
  have hid := runCheck_id a
  simp only [Check.id] at hid
  have hst : s.results.any stopped = false := by
    rw [h1]
    simp only [List.any_cons, List.any_nil, not_stopped hc, stopped_baseline, stopped_ppp, stopped_gof,
      Bool.or_self, hst']
  unfold health
  rw [hst, if_neg (by simp), h1, scores_default _ _ _ _ _ _ _ _ _ _ (by simp [hid]), hr, gof_score]
  have hb := baseline_default .pass (negativeProb w.baseline)
  simp only [score] at hb
  have e1 : lookup [r] .pps = some r := by simp [lookup, hid]
  have e2 : lookup [r] .roi = none := by simp [lookup, hid]
  rw [hb, e1, e2]
  simp only [Option.map_some, Option.map_none, Option.toList_none, Option.toList_some,
    List.append_nil, hs, List.cons_append, List.nil_append]
  unfold weightedMean
  rw [if_neg (by norm_num)]
  simp only [sumScore, Option.map_some, Option.some.injEq, modelPart, pppScore, List.map_cons,
    List.map_nil, List.sum_cons, List.sum_nil]
  push_cast
  ring

/-- With other priors on ROI the ROI consistency check counts fifteen hundredths as well. -/
theorem health_custom_roi {w : World} {conv : Verif.Rhat.Config} {s : Summary}
    (hc : (Verif.Rhat.check conv w.rhat).case ≠ .notConverged)
    (hg : ∃ g ∈ w.groups, g.roiPrior = true ∧ g.custom = true) {q : ℚ} (hr : w.rsq.all = .fin q)
    (h : w.run conv defaultBattery = .ok s) :
    health s = some ((10 * modelPart w q + 15 * Spec.passing (shiftedChannels w) (nChannels w) +
      15 * Spec.passing (consistentChannels w) (nChannels w)) / 100) := by
  obtain ⟨rest, h1, h2⟩ := default_results hc h
  have hcu := (customRoi_iff w).2 hg
  have hu := (usesRoi_iff w).2 (hg.imp fun g hg => ⟨hg.1, hg.2.1⟩)
  rw [filter_default, hu, hcu] at h2
  simp only [if_true, Bool.true_and, List.cons_append, List.nil_append] at h2
  obtain ⟨r, rs', rfl, a, h2⟩ := forall₂_cons_elim h2
  obtain ⟨r', rs'', rfl, a', h2⟩ := forall₂_cons_elim h2
  rw [List.forall₂_nil_left_iff] at h2
  subst h2
  obtain ⟨hs, hst'⟩ := pps_score a
  obtain ⟨hs2, hst2⟩ := roi_score a'
  have hid := runCheck_id a
  have hid' := runCheck_id a'
  simp only [Check.id] at hid hid'
  have hst : s.results.any stopped = false := by
    rw [h1]
    simp only [List.any_cons, List.any_nil, not_stopped hc, stopped_baseline, stopped_ppp, stopped_gof,
      Bool.or_self, hst', hst2]
  unfold health
  rw [hst, if_neg (by simp), h1, scores_default _ _ _ _ _ _ _ _ _ _ (by simp [hid, hid']), hr,
    gof_score]
  have hb := baseline_default .pass (negativeProb w.baseline)
  simp only [score] at hb
  have e1 : lookup [r, r'] .pps = some r := by simp [lookup, hid, hid']
  have e2 : lookup [r, r'] .roi = some r' := by simp [lookup, hid, hid']
  rw [hb, e1, e2]
  simp only [Option.map_some, Option.toList_some, hs, hs2, List.cons_append, List.nil_append]
  unfold weightedMean
  rw [if_neg (by norm_num)]
  simp only [sumScore, Option.map_some, Option.some.injEq, modelPart, pppScore, List.map_cons,
    List.map_nil, List.sum_cons, List.sum_nil]
  push_cast
  ring

example : (∃ g ∈ exWorld.groups, g.roiPrior = true ∧ g.custom = true) ∧
    shiftedChannels exWorld = 2 ∧ consistentChannels exWorld = 1 ∧ nChannels exWorld = 2 := by
  decide +kernel

/-! ## Where score and status disagree -/

/-- A p-value equal to the threshold passes the check but scores nothing. -/
theorem ppp_boundary (thr : ℚ) : pppStatus thr thr = .pass ∧ pppScore thr thr = 0 := by
  simp [pppStatus, pppScore]

/-- Otherwise the p-value scores 100 exactly if the check passes. -/
theorem ppp_score {thr p : ℚ} (h : p ≠ thr) :
    (pppScore thr p = 100 ↔ pppStatus thr p = .pass) ∧
    (pppScore thr p = 0 ↔ pppStatus thr p = .fail) := by
  unfold pppScore pppStatus
  rcases lt_or_gt_of_ne h with h | h
  · rw [if_neg (by linarith), if_neg (by linarith)]; simp
  · rw [if_pos h, if_pos h.le]; simp

/-- Whether the model converged fully has no influence on the score, although the review fails if it
did not. -/
theorem convergence_irrelevant {c c' : Verif.Rhat.Result} (h : c.case ≠ .notConverged)
    (h' : c'.case ≠ .notConverged) (o o' : Status) (rs : List Result) :
    health ⟨o, .convergence c :: rs⟩ = health ⟨o', .convergence c' :: rs⟩ := by
  have e : stopped (.convergence c) = false := by simpa [stopped] using h
  have e' : stopped (.convergence c') = false := by simpa [stopped] using h'
  have hl : ∀ iw ∈ weights, lookup (.convergence c :: rs) iw.1 = lookup (.convergence c' :: rs) iw.1 := by
    intro iw hiw
    have hne : iw.1 ≠ .convergence := by
      simp only [weights, List.mem_cons, List.not_mem_nil, or_false] at hiw
      rcases hiw with rfl | rfl | rfl | rfl | rfl <;> simp
    unfold lookup
    rw [List.filter_cons_of_neg (by simpa [Result.id] using hne.symm),
      List.filter_cons_of_neg (by simpa [Result.id] using hne.symm)]
  have hs : scoresAndWeights (.convergence c :: rs) = scoresAndWeights (.convergence c' :: rs) := by
    unfold scoresAndWeights
    refine List.filterMap_congr fun iw hiw => ?_
    rw [hl iw hiw]
  unfold health
  simp only [List.any_cons, e, e', Bool.false_or, hs]

/-- With an R-squared that is not a number the check of the fit passes and the score is not a number.
-/
theorem nan_fit_nan_score (c : Verif.Rhat.Result) (hc : c.case ≠ .notConverged) (o s1 s2 s3 : Status)
    (b : BaselineConfig) (p1 t p2 : ℚ) (sp : Option (Fl × Fl)) :
    health ⟨o, [.convergence c, .baseline s1 b p1, .ppp s2 t p2, .gof s3 ⟨.nan, sp⟩]⟩ = none := by
  have e : stopped (.convergence c) = false := by simpa [stopped] using hc
  unfold health
  simp only [List.any_cons, List.any_nil, e, stopped_baseline, stopped_ppp, stopped_gof, Bool.or_self,
    Bool.false_eq_true, if_false]
  rw [scores_default _ _ _ _ _ _ _ _ _ _ (by simp)]
  unfold weightedMean
  simp only [lookup, List.filter_nil, List.getLast?_nil, Option.map_none, Option.toList_none,
    List.append_nil]
  rw [if_neg (by norm_num)]
  cases hb : baselineScore b p1 <;> simp [sumScore, gofScore]

/-- Thresholds of the baseline in the wrong order are accepted and invert the score: a model without
any negative baseline passes the check and scores nothing. -/
theorem inverted_thresholds {c : BaselineConfig} (h0 : 0 ≤ c.fail) (h : c.fail < c.review) :
    baselineStatus c 0 = .pass ∧ baselineScore c 0 = some 0 := by
  constructor
  · unfold baselineStatus
    rw [if_neg (not_lt.2 h0), if_neg (by linarith)]
  · unfold baselineScore
    rw [if_neg h.ne]
    have hd : (0 : ℚ) < c.review - c.fail := sub_pos.2 h
    have h1 : (1 : ℚ) ≤ (0 - c.review) / (c.fail - c.review) := by
      rw [← neg_div_neg_eq, le_div_iff₀ (by linarith)]
      linarith
    have h2 : (1 : ℝ) ≤ (((0 - c.review) / (c.fail - c.review) : ℚ) : ℝ) := by exact_mod_cast h1
    unfold clip01
    rw [max_eq_right (by linarith), min_eq_left h2]
    norm_num

/-- Equal thresholds are accepted; a probability equal to them has no score. -/
theorem equal_thresholds (t : ℚ) : baselineScore ⟨t, t⟩ t = none := by
  simp [baselineScore]

end Verif.Health.Props
