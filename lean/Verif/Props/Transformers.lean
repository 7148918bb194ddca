import Verif.Lemmas.Transformers
import Mathlib.Tactic.NormNum
import Mathlib.Tactic.Ring

/-!
# Data transformers: properties C07 and C08
-/

namespace Verif.Transformers.Props

open Finset Verif.Transformers

/-! ### C07: transformers invert -/

/-- **C07 (KPI).** Where the population is non-zero and the population-scaled KPI is not constant,
`forward` and `inverse` undo each other for every tensor, not just the training KPI. -/
theorem kpi_inverse (G T : ℕ) (kpi : Panel) (pop : ℕ → ℝ) (x : Panel) (g t : ℕ)
    (hp : pop g ≠ 0) (hs : std G T (popScaled kpi pop) ≠ 0) :
    kpiInverse (kpiInit G T kpi pop) (kpiForward (kpiInit G T kpi pop) x) g t = x g t ∧
    kpiForward (kpiInit G T kpi pop) (kpiInverse (kpiInit G T kpi pop) x) g t = x g t := by
  constructor
  · simp only [kpiInverse, kpiForward, kpiInit, divideNoNan, ne_eq, hp, hs, not_false_eq_true,
      if_true]
    field_simp
    ring
  · simp only [kpiInverse, kpiForward, kpiInit, divideNoNan, ne_eq, hp, hs, not_false_eq_true,
      if_true]
    field_simp
    ring

/-- **C07 (KPI, training data).** For the training KPI itself the round trip holds even when it is
constant per head, in every geo with non-zero population. -/
theorem kpi_inverse_training (G T : ℕ) (kpi : Panel) (pop : ℕ → ℝ) (g t : ℕ) (hg : g < G)
    (ht : t < T) (hp : pop g ≠ 0) :
    kpiInverse (kpiInit G T kpi pop) (kpiForward (kpiInit G T kpi pop) kpi) g t = kpi g t := by
  by_cases hs : std G T (popScaled kpi pop) = 0
  · have hGT : 0 < G * T := Nat.mul_pos (by omega) (by omega)
    have h := (std_zero_iff G T (popScaled kpi pop) hGT).1 hs g hg t ht
    simp only [kpiInverse, kpiForward, kpiInit, hs, mul_zero, zero_add]
    rw [← h]
    simp only [popScaled, divideNoNan, ne_eq, hp, not_false_eq_true, if_true]
    field_simp
  · exact (kpi_inverse G T kpi pop kpi g t hp hs).1

/-- **C07 (KPI differences).** A difference on the model scale maps to the same difference times
standard deviation times population: the mean cancels. -/
theorem kpi_inverse_difference (s : Kpi) (x y : Panel) (g t : ℕ) :
    kpiInverse s x g t - kpiInverse s y g t = (x g t - y g t) * s.std * s.pop g := by
  unfold kpiInverse; ring

/-- **C07 (media).** -/
theorem media_inverse (med : ℝ) (pop : ℕ → ℝ) (x : Panel) (g t : ℕ) (hp : pop g ≠ 0)
    (hm : med ≠ 0) :
    mediaInverse med pop (mediaForward med pop x) g t = x g t ∧
    mediaForward med pop (mediaInverse med pop x) g t = x g t := by
  unfold mediaInverse mediaForward mediaScale
  constructor <;> field_simp

/-- **C07 (controls and non-media treatments).** With or without population scaling, `inverse`
undoes `forward` and vice versa. -/
theorem cs_inverse (G T : ℕ) (data : Panel) (pop : ℕ → ℝ) (scale : Option Bool) (x : Panel)
    (g t : ℕ) (hp : pop g ≠ 0) (hs : (csInit G T data pop scale).std ≠ 0) :
    csInverse (csInit G T data pop scale) (csForward (csInit G T data pop scale) x true) g t
      = x g t ∧
    csForward (csInit G T data pop scale) (csInverse (csInit G T data pop scale) x) true g t
      = x g t := by
  have key : ∀ s : CS, s.std ≠ 0 → (∀ f, s.factors = some f → f g ≠ 0) →
      csInverse s (csForward s x true) g t = x g t ∧ csForward s (csInverse s x) true g t = x g t := by
    intro s h1 h2
    obtain ⟨f, m, d⟩ := s
    cases f with
    | none =>
      simp only at h1
      simp only [csInverse, csForward, divideNoNan, ne_eq, h1, not_false_eq_true, if_true]
      constructor <;> field_simp <;> ring
    | some f =>
      have h3 := h2 f rfl
      simp only at h1
      simp only [csInverse, csForward, divideNoNan, ne_eq, h1, not_false_eq_true, if_true]
      constructor
      · field_simp; ring
      · field_simp; ring
  apply key _ hs
  intro f hf
  cases scale with
  | none => simp [csInit] at hf
  | some b =>
    simp only [csInit, Option.some.injEq] at hf
    rw [← hf]
    cases b <;> simp [hp]

/-- Two geos, two times. -/
def demo : Panel := fun g t => if g = 0 then 2 else if t = 0 then 8 else 20

/-- Populations 1 and 2; the KPI per head is 2, 2, 4, 10. -/
def demoPop (g : ℕ) : ℝ := if g = 0 then 1 else 2

theorem demo_std_ne : std 2 2 (popScaled demo demoPop) ≠ 0 := by
  intro h
  have h1 := (std_zero_iff 2 2 _ (by norm_num)).1 h 0 (by norm_num) 0 (by norm_num)
  have h2 := (std_zero_iff 2 2 _ (by norm_num)).1 h 1 (by norm_num) 0 (by norm_num)
  rw [← h2] at h1
  simp [popScaled, demo, demoPop, divideNoNan] at h1
  norm_num at h1

example : demoPop 0 ≠ 0 ∧ demoPop 1 ≠ 0 ∧ std 2 2 (popScaled demo demoPop) ≠ 0 :=
  ⟨by norm_num [demoPop], by norm_num [demoPop], demo_std_ne⟩

/-- **C07 (limit of the claim).** `inverse` always multiplies by the population factors; a tensor
transformed with `apply_population_scaling=False` is therefore not recovered. -/
theorem cs_inverse_needs_scaling : ∃ (s : CS) (x : Panel), s.std ≠ 0 ∧
    csInverse s (csForward s x false) 0 0 ≠ x 0 0 := by
  refine ⟨⟨some fun _ => 2, 0, 1⟩, fun _ _ => 3, by norm_num, ?_⟩
  norm_num [csInverse, csForward, divideNoNan]

/-- **C07 (limit of the claim).** In a geo with zero population (which input validation admits) the
KPI is lost: every value maps back to zero. -/
theorem kpi_lost_in_empty_geo (s : Kpi) (x : Panel) (g t : ℕ) (h : s.pop g = 0) :
    kpiInverse s (kpiForward s x) g t = 0 := by
  unfold kpiInverse; rw [h, mul_zero]

/-! ### C08: standardised data -/

/-- **C08 (KPI).** The KPI the model is fitted to has mean zero; unless the KPI per head is constant
its mean square is one; if it is constant the fitted KPI is identically zero. -/
theorem kpi_standardised (G T : ℕ) (kpi : Panel) (pop : ℕ → ℝ) (h : 0 < G * T) :
    let y := kpiForward (kpiInit G T kpi pop) kpi
    (∑ g ∈ range G, ∑ t ∈ range T, y g t = 0) ∧
    ((∃ g < G, ∃ t < T, ∃ g' < G, ∃ t' < T, popScaled kpi pop g t ≠ popScaled kpi pop g' t') →
      (∑ g ∈ range G, ∑ t ∈ range T, y g t ^ 2) / (G * T : ℕ) = 1) ∧
    ((∀ g < G, ∀ t < T, ∀ g' < G, ∀ t' < T, popScaled kpi pop g t = popScaled kpi pop g' t') →
      ∀ g < G, ∀ t < T, y g t = 0) := by
  obtain ⟨h1, h2⟩ := standardised G T (popScaled kpi pop) h
  refine ⟨h1, ?_, ?_⟩
  · rintro ⟨g, hg, t, ht, g', hg', t', ht', hne⟩
    apply h2
    intro hs
    have := (std_zero_iff G T (popScaled kpi pop) h).1 hs
    exact hne ((this g hg t ht).trans (this g' hg' t' ht').symm)
  · intro hc g hg t ht
    have hm : mean G T (popScaled kpi pop) = popScaled kpi pop g t := by
      rw [mean_eq]
      rw [Finset.sum_congr rfl fun g' hg' => Finset.sum_congr rfl fun t' ht' =>
        hc g' (mem_range.1 hg') t' (mem_range.1 ht') g hg t ht]
      have : ((G * T : ℕ) : ℝ) ≠ 0 := by exact_mod_cast h.ne'
      simp only [Finset.sum_const, card_range, nsmul_eq_mul]
      push_cast at this ⊢
      rw [← mul_assoc, mul_comm, mul_div_assoc, div_self this, mul_one]
    simp only [kpiForward, kpiInit]
    rw [hm]
    simp [popScaled, divideNoNan]

example : ∃ g < 2, ∃ t < 2, ∃ g' < 2, ∃ t' < 2,
    popScaled demo demoPop g t ≠ popScaled demo demoPop g' t' :=
  ⟨0, by norm_num, 0, by norm_num, 1, by norm_num, 0, by norm_num, by
    norm_num [popScaled, demo, demoPop, divideNoNan]⟩

/-- **C08 (controls, non-media).** The same for the centering and scaling transformer. -/
theorem cs_standardised (G T : ℕ) (x : Panel) (pop : ℕ → ℝ) (scale : Option Bool)
    (h : 0 < G * T) :
    let s := csInit G T x pop scale
    let y := csForward s x true
    (∑ g ∈ range G, ∑ t ∈ range T, y g t = 0) ∧
    (s.std ≠ 0 → (∑ g ∈ range G, ∑ t ∈ range T, y g t ^ 2) / (G * T : ℕ) = 1) := by
  cases scale with
  | none => exact standardised G T x h
  | some b => exact standardised G T (fun g t => x g t / (if b then pop g else 1)) h

/-- **C08 (zero spread).** The stored standard deviation is zero exactly for a constant (scaled)
variable. -/
theorem cs_std_zero_iff (G T : ℕ) (x : Panel) (pop : ℕ → ℝ) (b : Bool) (h : 0 < G * T) :
    (csInit G T x pop (some b)).std = 0 ↔
      ∃ k, ∀ g < G, ∀ t < T, x g t / (if b then pop g else 1) = k := by
  constructor
  · intro hs
    exact ⟨_, (std_zero_iff G T _ h).1 hs⟩
  · rintro ⟨k, hk⟩
    apply (std_zero_iff G T _ h).2
    intro g hg t ht
    rw [hk g hg t ht, mean_eq]
    rw [Finset.sum_congr rfl fun g' hg' => Finset.sum_congr rfl fun t' ht' =>
      hk g' (mem_range.1 hg') t' (mem_range.1 ht')]
    have : ((G * T : ℕ) : ℝ) ≠ 0 := by exact_mod_cast h.ne'
    simp only [Finset.sum_const, card_range, nsmul_eq_mul]
    push_cast at this ⊢
    rw [← mul_assoc, mul_comm, mul_div_assoc, div_self this, mul_one]

/-- **C08 (media).** The scale of geo `g` is its population times `med`, where `med` splits the
non-zero per-head media values in half; it is positive when media and population are, and the
transformer is rejected exactly when there is no non-zero per-head value. -/
theorem media_scale_correct (G T : ℕ) (media : Panel) (pop : ℕ → ℝ) :
    let vals := (cells G T fun g t => divideNoNan (media g t) (pop g)).filter fun v => decide (v ≠ 0)
    (mediaMedian G T media pop = none ↔ ∀ g < G, ∀ t < T, media g t = 0 ∨ pop g = 0) ∧
    ∀ med, mediaMedian G T media pop = some med →
      vals.length ≤ 2 * vals.countP (fun v => decide (v ≤ med)) ∧
      vals.length ≤ 2 * vals.countP (fun v => decide (med ≤ v)) ∧
      ((∀ g < G, ∀ t < T, 0 ≤ media g t) → (∀ g < G, 0 ≤ pop g) → 0 < med) ∧
      ∀ g, mediaScale med pop g = pop g * med := by
  simp only
  obtain ⟨h1, h2⟩ := median_spec
    ((cells G T fun g t => divideNoNan (media g t) (pop g)).filter fun v => decide (v ≠ 0))
  refine ⟨?_, ?_⟩
  · unfold mediaMedian
    rw [h1, List.filter_eq_nil_iff]
    constructor
    · intro h g hg t ht
      have := h _ (mem_cells.2 ⟨g, hg, t, ht, rfl⟩)
      have this : divideNoNan (media g t) (pop g) = 0 := by
        by_contra hne
        exact this (decide_eq_true hne)
      unfold divideNoNan at this
      by_cases hp : pop g = 0
      · exact Or.inr hp
      · rw [if_pos hp, div_eq_zero_iff] at this
        exact Or.inl (this.resolve_right hp)
    · intro h v hv
      obtain ⟨g, hg, t, ht, rfl⟩ := mem_cells.1 hv
      rcases h g hg t ht with h | h <;> simp [divideNoNan, h]
  · intro med hmed
    obtain ⟨a1, a2, v, hv, w, hw, b1, b2⟩ := h2 med hmed
    refine ⟨a1, a2, ?_, fun g => rfl⟩
    intro hm hp
    rw [List.mem_filter] at hv
    obtain ⟨hv1, hv2⟩ := hv
    obtain ⟨g, hg, t, ht, rfl⟩ := mem_cells.1 hv1
    have hnn : 0 ≤ divideNoNan (media g t) (pop g) := by
      unfold divideNoNan
      split_ifs
      · exact div_nonneg (hm g hg t ht) (hp g hg)
      · exact le_rfl
    have hne : divideNoNan (media g t) (pop g) ≠ 0 := by simpa using hv2
    have := lt_of_le_of_ne hnn (Ne.symm hne)
    linarith

example : (∀ g < 2, ∀ t < 2, 0 ≤ demo g t) ∧ ∃ med, mediaMedian 2 2 demo demoPop = some med := by
  refine ⟨fun g _ t _ => by unfold demo; split_ifs <;> norm_num, ?_⟩
  have := (media_scale_correct 2 2 demo demoPop).1
  cases h : mediaMedian 2 2 demo demoPop with
  | some m => exact ⟨m, rfl⟩
  | none =>
    have := this.1 h 0 (by norm_num) 0 (by norm_num)
    norm_num [demo, demoPop] at this

end Verif.Transformers.Props
