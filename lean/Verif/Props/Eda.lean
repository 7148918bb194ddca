import Verif.Lemmas.Eda
import Verif.Props.Transformers

/-!
# C69: the checks before sampling
-/

namespace Verif.Eda.Props

open Finset Spec

section Columns

variable {ι : Type} [Fintype ι] {V : ℕ}

/-! ### Pairs -/

/-- **C69.** A pair of variables is reported exactly if it is correlated beyond the threshold; each
pair is reported once, in the order of the variables. -/
theorem pair_reported_iff (x : Fin V → ι → ℝ) (r : ℝ) (i j : Fin V) :
    (i, j) ∈ extremePairs x r ↔ i < j ∧ Correlated r (x i) (x j) := mem_extremePairs x r i j

theorem pair_reported_once (x : Fin V → ι → ℝ) (r : ℝ) : (extremePairs x r).Nodup := by
  unfold extremePairs
  apply List.Nodup.filter
  exact List.Nodup.product (List.nodup_finRange V) (List.nodup_finRange V)

/-- **C69.** A correlation is at most one: with a threshold of one nothing is ever reported. -/
theorem threshold_one_reports_nothing (x : Fin V → ι → ℝ) {r : ℝ} (h : 1 ≤ r) :
    extremePairs x r = [] := by
  by_contra hne
  obtain ⟨i, j, _, _, _, hlt⟩ := (extremePairs_ne_nil x r).1 hne
  have h1 := abs_covariation_le (x i) (x j)
  have h2 : Real.sqrt (variation (x i) * variation (x j)) ≤
      r * Real.sqrt (variation (x i) * variation (x j)) :=
    le_mul_of_one_le_left (Real.sqrt_nonneg _) h
  linarith

/-- **C69.** The pairs reported under every threshold below one are the pairs that are the same up to
units. -/
theorem same_up_to_units_iff (x : Fin V → ι → ℝ) (i j : Fin V) :
    (∀ r < 1, (i, j) ∈ extremePairs x r) ↔
      i < j ∧ Varies (x i) ∧ SameUpToUnits (x i) (x j) := by
  constructor
  · intro h
    have hall : ∀ r < 1, i < j ∧ Correlated r (x i) (x j) := fun r hr =>
      (mem_extremePairs x r i j).1 (h r hr)
    obtain ⟨hij, hvi, hvj, _⟩ := hall 0 one_pos
    refine ⟨hij, hvi, ?_⟩
    set P := Real.sqrt (variation (x i) * variation (x j)) with hP
    have hpi := (variation_pos (x i)).2 hvi
    have hpj := (variation_pos (x j)).2 hvj
    have hPpos : 0 < P := Real.sqrt_pos.2 (mul_pos hpi hpj)
    have hge : P ≤ |covariation (x i) (x j)| := by
      by_contra hlt
      push Not at hlt
      have hr : |covariation (x i) (x j)| / P < 1 := (div_lt_one hPpos).2 hlt
      have := (hall _ hr).2.2.2
      rw [← hP, div_mul_cancel₀ _ hPpos.ne'] at this
      exact lt_irrefl _ this
    have heq : covariation (x i) (x j) ^ 2 = variation (x i) * variation (x j) := by
      apply le_antisymm (covariation_sq_le _ _)
      have := pow_le_pow_left₀ hPpos.le hge 2
      rwa [sq_abs, hP, Real.sq_sqrt (mul_pos hpi hpj).le] at this
    set c := covariation (x i) (x j) / variation (x i) with hc
    have hcne : c ≠ 0 := by
      rw [hc]
      apply div_ne_zero _ hpi.ne'
      intro h0
      rw [h0] at heq
      have := mul_pos hpi hpj
      nlinarith
    have hsum : ∑ s, ((x j s - avg (x j)) - c * (x i s - avg (x i))) ^ 2 = 0 := by
      rw [covariation_sub]
      have hcomm : covariation (x j) (x i) = covariation (x i) (x j) :=
        Finset.sum_congr rfl fun s _ => mul_comm _ _
      rw [hcomm, hc]
      field_simp
      nlinarith
    refine ⟨avg (x j) - c * avg (x i), c, hcne, fun s => ?_⟩
    have := (Finset.sum_eq_zero_iff_of_nonneg fun _ _ => sq_nonneg _).1 hsum s (mem_univ s)
    have := pow_eq_zero_iff (two_ne_zero) |>.1 this
    linarith
  · rintro ⟨hij, hvi, a, b, hb, h⟩ r hr
    refine (mem_extremePairs x r i j).2 ⟨hij, hvi, (varies_affine hb h).2 hvi, ?_⟩
    have hpi := (variation_pos (x i)).2 hvi
    have hcov : covariation (x i) (x j) = b * variation (x i) := by
      have := covariation_affine (x := x i) (y := x i) (x' := x i) (y' := x j) (a := 0) (b := 1)
        (c := a) (d := b) (fun s => by ring) h
      rw [this, covariation_self]; ring
    have hvar := variation_affine h
    rw [hcov, hvar, abs_mul, abs_of_pos hpi]
    have e : variation (x i) * (b ^ 2 * variation (x i)) = (b * variation (x i)) ^ 2 := by ring
    rw [e, Real.sqrt_sq_eq_abs, abs_mul, abs_of_pos hpi]
    have : 0 < |b| * variation (x i) := mul_pos (abs_pos.2 hb) hpi
    nlinarith

/-- **C69.** Units do not matter: other units for some of the variables leave the reported pairs as
they are. -/
theorem pairs_unit_free (x x' : Fin V → ι → ℝ) (r : ℝ)
    (h : ∀ v, ∃ a b, b ≠ 0 ∧ ∀ s, x' v s = a + b * x v s) :
    extremePairs x' r = extremePairs x r := by
  unfold extremePairs
  apply List.filter_congr
  intro p _
  have : beyond r (corr (x' p.1) (x' p.2)) ↔ beyond r (corr (x p.1) (x p.2)) := by
    rw [beyond_corr, beyond_corr]
    obtain ⟨a, b, hb, h1⟩ := h p.1
    obtain ⟨c, d, hd, h2⟩ := h p.2
    exact correlated_affine hb hd h1 h2 r
  exact decide_eq_decide.2 (and_congr_right fun _ => this)

/-- Two variables in different units and a third one. -/
def demo : Fin 3 → Fin 3 → ℝ := ![![1, 2, 4], ![10, 20, 40], ![1, 0, 0]]

example : (0, 1) ∈ extremePairs demo (999 / 1000) := by
  apply (same_up_to_units_iff demo 0 1).2
  · refine ⟨by decide, ⟨0, 1, by norm_num [demo]⟩, 0, 10, by norm_num, ?_⟩
    intro s
    fin_cases s <;> norm_num [demo]
  · norm_num

/-! ### Variance inflation -/

/-- **C69.** A variable is reported exactly if it has enough spread and the other variables with
enough spread predict it up to less than the fraction `1 / θ` of its variation. -/
theorem vif_reported_iff {θ : ℝ} (hθ : 0 < θ) (τ : ℝ) (x : Fin V → ι → ℝ) (i : Fin V) :
    i ∈ extremeVifs x τ θ ↔ Inflated τ θ x i := mem_extremeVifs hθ τ x i

/-- **C69.** The variables reported under every threshold are the combinations of the other
variables. -/
theorem redundant_iff (τ : ℝ) (x : Fin V → ι → ℝ) (i : Fin V) (J : Finset (Fin V))
    (hJ : Regressors τ x i J) (hs : Spread τ (x i)) (hv : Varies (x i)) :
    (∀ θ, 0 < θ → i ∈ extremeVifs x τ θ) ↔ Redundant x J i := by
  have hJ' := regressors_unique (regressors_others τ x i) hJ
  have hmem : ∀ θ, i ∈ extremeVifs x τ θ ↔ θ * rss x J i < variation (x i) := by
    intro θ
    have : i ∈ extremeVifs x τ θ ↔ vifBeyond θ (vif x τ i) := by
      simp [extremeVifs, List.mem_filter]
    rw [this, vifBeyond_iff, hJ']
    simp [hs, hv]
  have hpos := (variation_pos (x i)).2 hv
  constructor
  · intro h
    apply redundant_of_rss_zero
    by_contra hne
    have hr : 0 < rss x J i := lt_of_le_of_ne (rss_nonneg x J i) (Ne.symm hne)
    have := (hmem _).1 (h (variation (x i) / rss x J i) (div_pos hpos hr))
    rw [div_mul_cancel₀ _ hne] at this
    exact lt_irrefl _ this
  · intro h θ _
    rw [hmem, rss_zero_of_redundant x J i h, mul_zero]
    exact hpos

/-- **C69.** A factor is at least one: with a threshold below one every variable with enough spread is
reported. -/
theorem vif_at_least_one (τ : ℝ) (x : Fin V → ι → ℝ) (i : Fin V) {θ : ℝ} (hθ : θ < 1)
    (hs : Spread τ (x i)) (hv : Varies (x i)) : i ∈ extremeVifs x τ θ := by
  have : i ∈ extremeVifs x τ θ ↔ vifBeyond θ (vif x τ i) := by
    simp [extremeVifs, List.mem_filter]
  rw [this, vifBeyond_iff]
  refine ⟨hs, hv, ?_⟩
  have h1 := rss_le_variation x (others x τ i) i
  have h0 := rss_nonneg x (others x τ i) i
  have hpos := (variation_pos (x i)).2 hv
  rcases le_or_gt θ 0 with h | h
  · nlinarith
  · nlinarith

/-- **C69.** Both variables of a pair correlated beyond `r` are reported under every threshold up to
`1 / (1 - r²)`, if they have enough spread. -/
theorem pair_inflates (τ : ℝ) (x : Fin V → ι → ℝ) {r θ : ℝ} (hr0 : 0 ≤ r)
    (hθ : θ * (1 - r ^ 2) ≤ 1) (hθ0 : 0 ≤ θ) {i j : Fin V} (hp : (i, j) ∈ extremePairs x r)
    (hi : Spread τ (x i)) (hj : Spread τ (x j)) :
    i ∈ extremeVifs x τ θ ∧ j ∈ extremeVifs x τ θ := by
  obtain ⟨hij, hvi, hvj, hlt⟩ := (mem_extremePairs x r i j).1 hp
  have key : ∀ i j : Fin V, i ≠ j → Varies (x i) → Varies (x j) → Spread τ (x i) →
      Spread τ (x j) →
      r * Real.sqrt (variation (x i) * variation (x j)) < |covariation (x i) (x j)| →
      i ∈ extremeVifs x τ θ := by
    intro i j hne hvi hvj hi hj hlt
    have hmem : i ∈ extremeVifs x τ θ ↔ vifBeyond θ (vif x τ i) := by
      simp [extremeVifs, List.mem_filter]
    rw [hmem, vifBeyond_iff]
    refine ⟨hi, hvi, ?_⟩
    have hJ : j ∈ others x τ i := (regressors_others τ x i j).2 ⟨Ne.symm hne, hj⟩
    have h1 := rss_le_simple x (others x τ i) i j hJ hvj
    have hpi := (variation_pos (x i)).2 hvi
    have hpj := (variation_pos (x j)).2 hvj
    have h2 : r ^ 2 * (variation (x i) * variation (x j)) < covariation (x i) (x j) ^ 2 := by
      have h3 := pow_lt_pow_left₀ hlt (mul_nonneg hr0 (Real.sqrt_nonneg _)) two_ne_zero
      rwa [sq_abs, mul_pow, Real.sq_sqrt (mul_pos hpi hpj).le] at h3
    by_contra hge
    push Not at hge
    have h4 : variation (x i) * variation (x j) ≤
        θ * (variation (x i) * variation (x j) - covariation (x i) (x j) ^ 2) := by
      have := mul_le_mul_of_nonneg_right hge hpj.le
      have h5 := mul_le_mul_of_nonneg_left h1 hθ0
      nlinarith
    have h6 : 0 < variation (x i) * variation (x j) := mul_pos hpi hpj
    have hθpos : 0 < θ := by
      rcases hθ0.lt_or_eq with h | h
      · exact h
      · rw [← h, zero_mul] at h4; linarith
    have h7 : θ * (variation (x i) * variation (x j) - covariation (x i) (x j) ^ 2) <
        θ * ((1 - r ^ 2) * (variation (x i) * variation (x j))) := by
      apply mul_lt_mul_of_pos_left _ hθpos
      linarith
    nlinarith
  refine ⟨key i j hij.ne hvi hvj hi hj hlt, key j i hij.ne' hvj hvi hj hi ?_⟩
  have hcomm : covariation (x j) (x i) = covariation (x i) (x j) :=
    Finset.sum_congr rfl fun s _ => mul_comm _ _
  rw [hcomm, mul_comm (variation (x j))]
  exact hlt

/-- A pair reported with the default threshold has factors above 500; the default threshold for
factors is 1000. -/
example : (500 : ℝ) * (1 - (999 / 1000) ^ 2) ≤ 1 ∧ ¬ (1000 : ℝ) * (1 - (999 / 1000) ^ 2) ≤ 1 := by
  norm_num

/-- **C69.** More variables with enough spread: what was reported stays reported. -/
theorem inflated_monotone {W : ℕ} (τ : ℝ) {θ : ℝ} (hθ : 0 < θ) (x : Fin V → ι → ℝ)
    (y : Fin W → ι → ℝ) (e : Fin V ↪ Fin W) (h : ∀ v, y (e v) = x v) (i : Fin V)
    (hi : i ∈ extremeVifs x τ θ) : e i ∈ extremeVifs y τ θ := by
  classical
  rw [mem_extremeVifs hθ] at hi ⊢
  obtain ⟨hs, hv, J, hJ, a, b, hlt⟩ := hi
  refine ⟨by rw [h]; exact hs, by rw [h]; exact hv, others y τ (e i),
    regressors_others τ y (e i), a,
    fun w => if hw : ∃ v ∈ J, e v = w then b hw.choose else 0, ?_⟩
  rw [h]
  refine lt_of_le_of_lt (le_of_eq ?_) hlt
  refine Finset.sum_congr rfl fun s _ => ?_
  congr 2
  congr 1
  have hsub : J.map e ⊆ others y τ (e i) := by
    intro w hw
    obtain ⟨v, hvJ, rfl⟩ := Finset.mem_map.1 hw
    rw [regressors_others τ y (e i)]
    have := (hJ v).1 hvJ
    exact ⟨fun h' => this.1 (e.injective h'), by rw [h]; exact this.2⟩
  rw [← Finset.sum_subset hsub, Finset.sum_map]
  · refine Finset.sum_congr rfl fun v hvJ => ?_
    have hw : ∃ u ∈ J, e u = e v := ⟨v, hvJ, rfl⟩
    simp only
    rw [dif_pos hw, h]
    have := e.injective hw.choose_spec.2
    rw [this]
  · intro w _ hw
    simp only
    rw [dif_neg, zero_mul]
    rintro ⟨v, hvJ, rfl⟩
    exact hw (Finset.mem_map_of_mem e hvJ)

/-- Three variables, the third is the sum of the first two: no pair is reported, the factors are. -/
def demo3 : Fin 3 → Fin 4 → ℝ
  | 0, 0 => 1
  | 1, 1 => 1
  | 2, 0 => 1
  | 2, 1 => 1
  | _, _ => 0

theorem demo3_cells : demo3 0 0 = 1 ∧ demo3 0 1 = 0 ∧ demo3 0 2 = 0 ∧ demo3 0 3 = 0 ∧
    demo3 1 0 = 0 ∧ demo3 1 1 = 1 ∧ demo3 1 2 = 0 ∧ demo3 1 3 = 0 ∧
    demo3 2 0 = 1 ∧ demo3 2 1 = 1 ∧ demo3 2 2 = 0 ∧ demo3 2 3 = 0 :=
  ⟨rfl, rfl, rfl, rfl, rfl, rfl, rfl, rfl, rfl, rfl, rfl, rfl⟩

theorem demo3_variation : variation (demo3 0) = 3 / 4 ∧ variation (demo3 1) = 3 / 4 ∧
    variation (demo3 2) = 1 := by
  refine ⟨?_, ?_, ?_⟩ <;>
    (simp only [variation, avg, Fin.sum_univ_four, demo3_cells, Fintype.card_fin]; norm_num)

theorem demo3_spread (i : Fin 3) : Spread (1 / 10000) (demo3 i) := by
  unfold Spread
  apply Real.le_sqrt_of_sq_le
  obtain ⟨h0, h1, h2⟩ := demo3_variation
  fin_cases i
  · show _ ≤ variation (demo3 0) / _
    rw [h0]; norm_num
  · show _ ≤ variation (demo3 1) / _
    rw [h1]; norm_num
  · show _ ≤ variation (demo3 2) / _
    rw [h2]; norm_num

/-- **C69.** The pairwise check does not replace the factors: a variable can be the exact sum of two
others without any reported pair. -/
theorem factors_see_more : extremePairs demo3 (999 / 1000) = [] ∧
    ∀ θ, 0 < θ → (2 : Fin 3) ∈ extremeVifs demo3 (1 / 10000) θ := by
  constructor
  · by_contra hne
    obtain ⟨i, j, hij, hc⟩ := (extremePairs_ne_nil demo3 _).1 hne
    have hlt := hc.2.2
    clear hc
    obtain ⟨h0, h1, h2⟩ := demo3_variation
    have hc : covariation (demo3 0) (demo3 1) = -1 / 4 ∧ covariation (demo3 0) (demo3 2) = 1 / 2 ∧
        covariation (demo3 1) (demo3 2) = 1 / 2 := by
      refine ⟨?_, ?_, ?_⟩ <;>
        (simp only [covariation, avg, Fin.sum_univ_four, demo3_cells, Fintype.card_fin]; norm_num)
    obtain ⟨c1, c2, c3⟩ := hc
    have hs : (3 / 5 : ℝ) ≤ Real.sqrt (3 / 4 * (3 / 4)) :=
      Real.le_sqrt_of_sq_le (by norm_num)
    have hs' : (3 / 5 : ℝ) ≤ Real.sqrt (3 / 4 * 1) := Real.le_sqrt_of_sq_le (by norm_num)
    have cases : (i = 0 ∧ j = 1) ∨ (i = 0 ∧ j = 2) ∨ (i = 1 ∧ j = 2) := by
      clear hlt
      revert hij; revert i j; decide
    rcases cases with ⟨rfl, rfl⟩ | ⟨rfl, rfl⟩ | ⟨rfl, rfl⟩
    · rw [h0, h1, c1, abs_of_neg (by norm_num)] at hlt
      linarith
    · rw [h0, h2, c2, abs_of_pos (by norm_num)] at hlt
      linarith
    · rw [h1, h2, c3, abs_of_pos (by norm_num)] at hlt
      linarith
  · apply (redundant_iff _ _ _ _ (regressors_others _ _ _) (demo3_spread 2)
      ⟨0, 2, by norm_num [demo3_cells]⟩).2
    refine ⟨0, fun _ => 1, fun s => ?_⟩
    have : others demo3 (1 / 10000) 2 = {0, 1} := by
      ext j
      rw [regressors_others _ _ _ j]
      have := demo3_spread j
      simp only [this, and_true]
      fin_cases j <;> simp
    rw [this, Finset.sum_pair (by decide)]
    fin_cases s <;> simp [demo3_cells]

end Columns

/-! ### The KPI -/

/-- The KPI per head differs between some cells. -/
def PerHeadVaries (d : Data) : Prop :=
  ∃ g < d.G, ∃ t < d.T, ∃ g' < d.G, ∃ t' < d.T,
    Transformers.popScaled d.kpi d.population g t ≠ Transformers.popScaled d.kpi d.population g' t'

theorem kpiScaled_variation (d : Data) (h : 0 < d.G * d.T) :
    (PerHeadVaries d → variation d.kpiScaled = (d.G * d.T : ℕ)) ∧
    (¬ PerHeadVaries d → variation d.kpiScaled = 0) := by
  obtain ⟨h0, h1, h2⟩ := Transformers.Props.kpi_standardised d.G d.T d.kpi d.population h
  set y := Transformers.kpiForward (Transformers.kpiInit d.G d.T d.kpi d.population) d.kpi with hy
  have hn : ((d.G * d.T : ℕ) : ℝ) ≠ 0 := by exact_mod_cast h.ne'
  have havg : avg d.kpiScaled = 0 := by
    unfold avg
    have : ∑ s, d.kpiScaled s = 0 := (sum_fin_prod y).trans h0
    rw [this, zero_div]
  have hvar : variation d.kpiScaled = ∑ g ∈ range d.G, ∑ t ∈ range d.T, y g t ^ 2 := by
    unfold variation
    rw [havg]
    have := sum_fin_prod (G := d.G) (T := d.T) fun g t => y g t ^ 2
    rw [← this]
    exact Finset.sum_congr rfl fun s _ => by rw [sub_zero]; rfl
  constructor
  · intro hp
    have := h1 hp
    rw [hvar]
    field_simp at this
    exact this
  · intro hp
    rw [hvar]
    apply Finset.sum_eq_zero
    intro g hg
    apply Finset.sum_eq_zero
    intro t ht
    have : y g t = 0 := by
      refine h2 ?_ g (mem_range.1 hg) t (mem_range.1 ht)
      intro g hg t ht g' hg' t' ht'
      by_contra hne
      exact hp ⟨g, hg, t, ht, g', hg', t', ht', hne⟩
    rw [this]; ring

/-- **C69.** With at least two cells and a threshold above zero and at most one (the default is
0.0001) the KPI passes exactly if the KPI per head is not the same everywhere: the value of the
threshold does not matter. -/
theorem kpi_passes_iff (d : Data) (s : Spec) (h : 2 ≤ d.G * d.T) (h0 : 0 < s.kpiStd)
    (h1 : s.kpiStd ≤ 1) : kpiHasVariability d s ↔ PerHeadVaries d := by
  have hcard : Fintype.card (Fin d.G × Fin d.T) = d.G * d.T := by simp
  obtain ⟨hv, hc⟩ := kpiScaled_variation d (by omega)
  have hstd : std1 d.kpiScaled =
      some (Real.sqrt (variation d.kpiScaled / ((d.G * d.T : ℕ) - 1))) := by
    unfold std1
    rw [hcard, if_neg (by omega), ss_self]
  have hn : (2 : ℝ) ≤ (d.G * d.T : ℕ) := by exact_mod_cast h
  unfold kpiHasVariability
  rw [hstd]
  constructor
  · rintro ⟨v, hv', hle⟩
    by_contra hp
    rw [hc hp, zero_div, Real.sqrt_zero, Option.some.injEq] at hv'
    linarith
  · intro hp
    refine ⟨_, rfl, ?_⟩
    rw [hv hp]
    apply le_trans h1
    apply Real.le_sqrt_of_sq_le
    rw [one_pow, le_div_iff₀ (by linarith)]
    linarith

/-- **C69.** With a single cell the KPI never passes. -/
theorem single_cell_fails (d : Data) (s : Spec) (h : d.G * d.T ≤ 1) :
    ¬ kpiHasVariability d s := by
  rintro ⟨v, hv, _⟩
  have hcard : Fintype.card (Fin d.G × Fin d.T) = d.G * d.T := by simp
  unfold std1 at hv
  rw [hcard, if_pos h] at hv
  cases hv

/-- **C69.** The population scaling decides: the same KPI in every cell passes when the populations
differ, and a KPI proportional to the population fails although it varies. -/
theorem constant_kpi_may_pass :
    ∃ d : Data, (∀ g t, d.kpi g t = 100) ∧ kpiHasVariability d {} := by
  refine ⟨⟨false, 2, 2, 0, nofun, nofun, nofun, fun _ _ => 100, fun g => g + 1⟩,
    fun _ _ => rfl, ?_⟩
  rw [kpi_passes_iff _ _ (by norm_num) (by norm_num) (by norm_num)]
  refine ⟨0, by norm_num, 0, by norm_num, 1, by norm_num, 0, by norm_num, ?_⟩
  norm_num [Transformers.popScaled, Transformers.divideNoNan]

theorem varying_kpi_may_fail :
    ∃ d : Data, d.kpi 0 0 ≠ d.kpi 1 0 ∧ 2 ≤ d.G ∧ ¬ kpiHasVariability d {} := by
  refine ⟨⟨false, 2, 2, 0, nofun, nofun, nofun, fun g _ => 100 * (g + 1), fun g => g + 1⟩,
    by norm_num, le_refl _, ?_⟩
  rw [kpi_passes_iff _ _ (by norm_num) (by norm_num) (by norm_num)]
  rintro ⟨g, _, t, _, g', _, t', _, hne⟩
  apply hne
  have e : ∀ g : ℕ, (g : ℝ) + 1 ≠ 0 := fun g => by positivity
  simp [Transformers.popScaled, Transformers.divideNoNan, e]

/-! ### The guardrail -/

theorem report_any (p : Prop) (f : Finding) :
    (∃ x ∈ report p f, x.severity = .error) ↔ p ∧ f.severity = .error := by
  classical
  unfold report
  by_cases h : p
  · simp [h]
  · simp [h]

theorem orInfo_any (fs : List Finding) :
    (orInfo fs).any (fun f => f.severity = .error) = fs.any (fun f => f.severity = .error) := by
  unfold orInfo
  by_cases h : fs = []
  · rw [if_pos h, h]; rfl
  · rw [if_neg h]

/-- The errors of the check of pairs, of the check of factors and of the check of the KPI. -/
def PairError (d : Data) (s : Spec) : Prop :=
  (d.national = true ∧ SomePair s.corrNational d.byTime) ∨
    (d.national = false ∧ SomePair s.corrOverall d.overall)

def VifError (d : Data) (s : Spec) : Prop :=
  (d.national = true ∧ SomeInflated s.vifStd s.vifNational d.byTime) ∨
    (d.national = false ∧ SomeInflated s.vifStd s.vifOverall d.overall)

theorem pair_error_iff (d : Data) (s : Spec) :
    (checkPairwiseCorr d s).findings.any (fun f => f.severity = .error) = true ↔ PairError d s := by
  unfold checkPairwiseCorr PairError
  simp only [orInfo_any]
  cases d.national with
  | true => simp [report_any, extremePairs_ne_nil]
  | false => simp [List.any_append, report_any, extremePairs_ne_nil]

theorem vif_error_iff (d : Data) (s : Spec) (h1 : 0 < s.vifOverall) (h2 : 0 < s.vifNational) :
    (checkVif d s).findings.any (fun f => f.severity = .error) = true ↔ VifError d s := by
  unfold checkVif VifError
  simp only [orInfo_any]
  cases d.national with
  | true => simp [report_any, extremeVifs_ne_nil h2]
  | false => simp [List.any_append, report_any, extremeVifs_ne_nil h1]

theorem kpi_error_iff (d : Data) (s : Spec) :
    (checkKpi d s).findings.any (fun f => f.severity = .error) = true ↔ ¬ kpiHasVariability d s := by
  unfold checkKpi
  by_cases h : kpiHasVariability d s
  · simp [h]
  · simp [h]

theorem guardrail_eq (d : Data) (s : Spec) (raises : CheckType → Bool) :
    (guardrail d s raises = .ok () ↔
      ∀ o ∈ criticalChecks d s raises, ¬ o.findings.any (fun f => f.severity = .error) = true) := by
  unfold guardrail
  simp only
  by_cases h : ((criticalChecks d s raises).filter fun o =>
      o.findings.any fun f => f.severity = .error) = []
  · rw [if_pos h]
    simp only [true_iff]
    exact List.filter_eq_nil_iff.1 h
  · rw [if_neg h]
    simp only [reduceCtorEq, false_iff]
    intro hn
    exact h (List.filter_eq_nil_iff.2 hn)

/-- **C69.** Sampling may start exactly if no check raised an exception, the KPI varies, no pair is
correlated and no variable inflated beyond the thresholds: for a national model in the national
series, otherwise in all geos and times together. -/
theorem sampling_allowed_iff (d : Data) (s : Spec) (raises : CheckType → Bool)
    (h1 : 0 < s.vifOverall) (h2 : 0 < s.vifNational) :
    guardrail d s raises = .ok () ↔
      (∀ c, raises c = false) ∧ kpiHasVariability d s ∧ ¬ VifError d s ∧ ¬ PairError d s := by
  rw [guardrail_eq]
  simp only [criticalChecks, List.map_cons, List.map_nil, List.forall_mem_cons,
    List.not_mem_nil, false_imp_iff, implies_true, and_true]
  have e : ∀ (c : CheckType) (o : Outcome),
      (¬ (if raises c = true then (⟨c, [⟨.error, .runtimeError⟩]⟩ : Outcome) else o).findings.any
        (fun f => f.severity = .error) = true) ↔
      (raises c = false ∧ ¬ o.findings.any (fun f => f.severity = .error) = true) := by
    intro c o
    cases raises c with
    | true => simp
    | false => simp
  rw [e, e, e, kpi_error_iff, vif_error_iff d s h1 h2, pair_error_iff, not_not]
  constructor
  · rintro ⟨⟨a1, a2⟩, ⟨b1, b2⟩, c1, c2⟩
    refine ⟨fun c => ?_, a2, b2, c2⟩
    cases c with
    | kpiInvariability => exact a1
    | multicollinearity => exact b1
    | pairwiseCorrelation => exact c1
  · rintro ⟨a, b, c, e⟩
    exact ⟨⟨a _, b⟩, ⟨a _, c⟩, a _, e⟩

/-- **C69.** What is found in single geos never stops sampling: their thresholds have no influence on
the guardrail. -/
theorem geo_findings_do_not_block (d : Data) (s : Spec) (raises : CheckType → Bool) (r θ : ℝ)
    (h1 : 0 < s.vifOverall) (h2 : 0 < s.vifNational) :
    guardrail d { s with corrGeo := r, vifGeo := θ } raises = .ok () ↔
      guardrail d s raises = .ok () := by
  rw [sampling_allowed_iff d s raises h1 h2,
    sampling_allowed_iff d { s with corrGeo := r, vifGeo := θ } raises h1 h2]
  rfl

/-- **C69.** An attention is raised for pairs exactly if a pair is correlated in some geo beyond the
threshold for geos and no pair of variables with these names is beyond the threshold overall. -/
theorem pair_attention_iff (d : Data) (s : Spec) :
    (⟨.attention, .multicollinearity⟩ : Finding) ∈ (checkPairwiseCorr d s).findings ↔
      d.national = false ∧ ∃ g i j, i < j ∧
        Correlated s.corrGeo (d.byGeo i g) (d.byGeo j g) ∧
        ¬ ∃ k l, k < l ∧ Correlated s.corrOverall (d.overall k) (d.overall l) ∧
          d.name k = d.name i ∧ d.name l = d.name j := by
  classical
  have hgeo : geoPairs d s ≠ [] ↔ ∃ g i j, i < j ∧
      Correlated s.corrGeo (d.byGeo i g) (d.byGeo j g) ∧
      ¬ ∃ k l, k < l ∧ Correlated s.corrOverall (d.overall k) (d.overall l) ∧
        d.name k = d.name i ∧ d.name l = d.name j := by
    have hmem : ∀ g i j, (g, i, j) ∈ geoPairs d s ↔ (i < j ∧
        Correlated s.corrGeo (d.byGeo i g) (d.byGeo j g)) ∧
        ¬ ∃ k l, k < l ∧ Correlated s.corrOverall (d.overall k) (d.overall l) ∧
          d.name k = d.name i ∧ d.name l = d.name j := by
      intro g i j
      unfold geoPairs
      rw [List.mem_filter, List.mem_flatMap]
      constructor
      · rintro ⟨⟨g', _, h⟩, h'⟩
        rw [List.mem_map] at h
        obtain ⟨p, hp, he⟩ := h
        obtain ⟨rfl, rfl⟩ := Prod.mk.inj he
        refine ⟨(mem_extremePairs _ _ i j).1 hp, ?_⟩
        simp only [decide_eq_true_eq] at h'
        rintro ⟨k, l, hkl, hc, hn⟩
        exact h' ⟨(k, l), (mem_extremePairs _ _ k l).2 ⟨hkl, hc⟩, hn⟩
      · rintro ⟨h, h'⟩
        refine ⟨⟨g, List.mem_finRange g, List.mem_map.2 ⟨(i, j),
          (mem_extremePairs _ _ i j).2 h, rfl⟩⟩, ?_⟩
        simp only [decide_eq_true_eq]
        rintro ⟨⟨k, l⟩, hp, hn⟩
        obtain ⟨hkl, hc⟩ := (mem_extremePairs _ _ k l).1 hp
        exact h' ⟨k, l, hkl, hc, hn⟩
    constructor
    · intro h
      obtain ⟨⟨g, i, j⟩, hq⟩ := List.exists_mem_of_ne_nil _ h
      obtain ⟨⟨a, b⟩, c⟩ := (hmem g i j).1 hq
      exact ⟨g, i, j, a, b, c⟩
    · rintro ⟨g, i, j, a, b, c⟩
      exact List.ne_nil_of_mem ((hmem g i j).2 ⟨⟨a, b⟩, c⟩)
  rw [← hgeo]
  unfold checkPairwiseCorr orInfo report
  cases d.national with
  | true =>
    simp only [if_true, Bool.true_eq_false, false_and, iff_false]
    by_cases h : extremePairs d.byTime s.corrNational = [] <;> simp [h]
  | false =>
    simp only [Bool.false_eq_true, if_false, true_and]
    by_cases h : extremePairs d.overall s.corrOverall = [] <;>
      by_cases h' : geoPairs d s = [] <;> simp [h, h']

/-- **C69.** The same for factors. -/
theorem vif_attention_iff (d : Data) (s : Spec) (h1 : 0 < s.vifOverall) (h2 : 0 < s.vifGeo) :
    (⟨.attention, .multicollinearity⟩ : Finding) ∈ (checkVif d s).findings ↔
      d.national = false ∧ ∃ g i, Inflated s.vifStd s.vifGeo (fun v => d.byGeo v g) i ∧
        ¬ ∃ k, Inflated s.vifStd s.vifOverall d.overall k ∧ d.name k = d.name i := by
  classical
  have hmem : ∀ g i, (g, i) ∈ geoVifs d s ↔
      Inflated s.vifStd s.vifGeo (fun v => d.byGeo v g) i ∧
        ¬ ∃ k, Inflated s.vifStd s.vifOverall d.overall k ∧ d.name k = d.name i := by
    intro g i
    unfold geoVifs
    rw [List.mem_filter, List.mem_flatMap]
    constructor
    · rintro ⟨⟨g', _, h⟩, h'⟩
      rw [List.mem_map] at h
      obtain ⟨p, hp, he⟩ := h
      obtain ⟨rfl, rfl⟩ := Prod.mk.inj he
      refine ⟨(mem_extremeVifs h2 _ _ _).1 hp, ?_⟩
      simp only [decide_eq_true_eq] at h'
      rintro ⟨k, hk, hn⟩
      exact h' ⟨k, (mem_extremeVifs h1 _ _ _).2 hk, hn⟩
    · rintro ⟨h, h'⟩
      refine ⟨⟨g, List.mem_finRange g, List.mem_map.2 ⟨i, (mem_extremeVifs h2 _ _ _).2 h, rfl⟩⟩, ?_⟩
      simp only [decide_eq_true_eq]
      rintro ⟨k, hk, hn⟩
      exact h' ⟨k, (mem_extremeVifs h1 _ _ _).1 hk, hn⟩
  have hgeo : geoVifs d s ≠ [] ↔ ∃ g i, Inflated s.vifStd s.vifGeo (fun v => d.byGeo v g) i ∧
        ¬ ∃ k, Inflated s.vifStd s.vifOverall d.overall k ∧ d.name k = d.name i := by
    constructor
    · intro h
      obtain ⟨⟨g, i⟩, hq⟩ := List.exists_mem_of_ne_nil _ h
      exact ⟨g, i, (hmem g i).1 hq⟩
    · rintro ⟨g, i, hq⟩
      exact List.ne_nil_of_mem ((hmem g i).2 hq)
  rw [← hgeo]
  unfold checkVif orInfo report
  cases d.national with
  | true =>
    simp only [if_true, Bool.true_eq_false, false_and, iff_false]
    by_cases h : extremeVifs d.byTime s.vifStd s.vifNational = [] <;> simp [h]
  | false =>
    simp only [Bool.false_eq_true, if_false, true_and]
    by_cases h : extremeVifs d.overall s.vifStd s.vifOverall = [] <;>
      by_cases h' : geoVifs d s = [] <;> simp [h, h']

/-- **C69.** The exception names the failed checks, KPI first, then factors, then pairs. -/
theorem guardrail_names (d : Data) (s : Spec) (raises : CheckType → Bool) (cs : List CheckType)
    (h1 : 0 < s.vifOverall) (h2 : 0 < s.vifNational) (h : guardrail d s raises = .error cs)
    (c : CheckType) :
    (c ∈ cs ↔ raises c = true ∨ match c with
      | .kpiInvariability => ¬ kpiHasVariability d s
      | .multicollinearity => VifError d s
      | .pairwiseCorrelation => PairError d s) ∧
    cs.Sublist [.kpiInvariability, .multicollinearity, .pairwiseCorrelation] := by
  unfold guardrail at h
  simp only at h
  by_cases hb : ((criticalChecks d s raises).filter fun o =>
      o.findings.any fun f => f.severity = .error) = []
  · rw [if_pos hb] at h; cases h
  rw [if_neg hb, Except.error.injEq] at h
  subst h
  have htypes : (criticalChecks d s raises).map Outcome.checkType =
      [.kpiInvariability, .multicollinearity, .pairwiseCorrelation] := by
    simp only [criticalChecks, List.map_cons, List.map_nil, apply_ite Outcome.checkType]
    simp [checkKpi, checkVif, checkPairwiseCorr]
  constructor
  · rw [List.mem_map]
    have e : ∀ (c : CheckType) (o : Outcome),
        ((if raises c = true then (⟨c, [⟨.error, .runtimeError⟩]⟩ : Outcome) else o).findings.any
          (fun f => f.severity = .error) = true) ↔
        (raises c = true ∨ o.findings.any (fun f => f.severity = .error) = true) := by
      intro c o
      cases raises c with
      | true => simp
      | false => simp
    have ety : ∀ (c : CheckType) (o : Outcome), o.checkType = c →
        (if raises c = true then (⟨c, [⟨.error, .runtimeError⟩]⟩ : Outcome) else o).checkType = c := by
      intro c o ho
      cases raises c with
      | true => rfl
      | false => exact ho
    have t1 := ety .kpiInvariability (checkKpi d s) rfl
    have t2 := ety .multicollinearity (checkVif d s) rfl
    have t3 := ety .pairwiseCorrelation (checkPairwiseCorr d s) rfl
    have a1 := e .kpiInvariability (checkKpi d s)
    have a2 := e .multicollinearity (checkVif d s)
    have a3 := e .pairwiseCorrelation (checkPairwiseCorr d s)
    rw [kpi_error_iff] at a1
    rw [vif_error_iff d s h1 h2] at a2
    rw [pair_error_iff] at a3
    constructor
    · rintro ⟨o, ho, rfl⟩
      rw [List.mem_filter] at ho
      obtain ⟨hm, hany⟩ := ho
      simp only [criticalChecks, List.map_cons, List.map_nil, List.mem_cons, List.not_mem_nil,
        or_false] at hm
      rcases hm with rfl | rfl | rfl
      · rw [t1]; exact a1.1 hany
      · rw [t2]; exact a2.1 hany
      · rw [t3]; exact a3.1 hany
    · intro hc
      cases c with
      | kpiInvariability =>
        exact ⟨_, List.mem_filter.2 ⟨by simp [criticalChecks], a1.2 hc⟩, t1⟩
      | multicollinearity =>
        exact ⟨_, List.mem_filter.2 ⟨by simp [criticalChecks], a2.2 hc⟩, t2⟩
      | pairwiseCorrelation =>
        exact ⟨_, List.mem_filter.2 ⟨by simp [criticalChecks], a3.2 hc⟩, t3⟩
  · rw [← htypes]
    exact List.filter_sublist.map _

/-! ### Making a model -/

/-- **C69.** A model whose KPI does not vary is refused when it is made exactly if some kind of
treatment that is present has a prior on the return or the contribution; otherwise it can be made,
but it can never be sampled. -/
theorem model_refused_iff (d : Data) (s : Spec) (count : Kind → ℕ) (prior : Kind → PriorType) :
    (∃ k, validateKpi d s count prior = .error k) ↔
      ¬ kpiHasVariability d s ∧ ∃ k, 0 < count k ∧
        (prior k = .contribution ∨ ((k = .media ∨ k = .rf) ∧ (prior k = .roi ∨ prior k = .mroi))) := by
  classical
  have hneed : ∀ k p, needsVariability k p = true ↔
      (p = .contribution ∨ ((k = .media ∨ k = .rf) ∧ (p = .roi ∨ p = .mroi))) := by
    intro k p
    cases k <;> cases p <;> decide
  have hall : ∀ k : Kind, k ∈ [Kind.media, .rf, .organicMedia, .organicRf, .nonMedia] := by
    intro k; cases k <;> decide
  unfold validateKpi
  by_cases h : kpiHasVariability d s
  · rw [if_pos h]; simp [h]
  · rw [if_neg h]
    simp only [h, not_false_eq_true, true_and]
    cases hf : ([Kind.media, .rf, .organicMedia, .organicRf, .nonMedia].find? fun k =>
        decide (0 < count k) && needsVariability k (prior k)) with
    | none =>
      simp only [reduceCtorEq, exists_false, false_iff]
      rintro ⟨k, hk, hp⟩
      have := List.find?_eq_none.1 hf k (hall k)
      simp only [Bool.and_eq_true, decide_eq_true_eq, not_and] at this
      exact this hk ((hneed k _).2 hp)
    | some k =>
      have := List.find?_some hf
      simp only [Bool.and_eq_true, decide_eq_true_eq] at this
      simp only [Except.error.injEq, exists_eq', true_iff]
      exact ⟨k, this.1, (hneed k _).1 this.2⟩

theorem constant_kpi_never_sampled (d : Data) (s : Spec) (raises : CheckType → Bool)
    (h : ¬ kpiHasVariability d s) : guardrail d s raises ≠ .ok () := by
  rw [Ne, guardrail_eq]
  intro hn
  have := hn _ (by simp only [criticalChecks, List.map_cons]; exact List.mem_cons_self ..)
  apply this
  cases hr : raises .kpiInvariability with
  | true => simp
  | false =>
    simp only [Bool.false_eq_true, if_false]
    exact (kpi_error_iff d s).2 h

/-! ### A concrete case -/

/-- Two geos, two times, one variable. -/
def small : Data where
  national := false
  G := 2
  T := 2
  V := 1
  name := fun _ => "tv"
  byGeo := fun _ g t => g + t
  byTime := fun _ t => t
  kpi := fun g t => g + 2 * t
  population := fun _ => 1

theorem small_kpi : kpiHasVariability small {} := by
  rw [kpi_passes_iff _ _ (by norm_num [small]) (by norm_num) (by norm_num)]
  refine ⟨0, by norm_num [small], 0, by norm_num [small], 1, by norm_num [small], 0,
    by norm_num [small], ?_⟩
  norm_num [Transformers.popScaled, Transformers.divideNoNan, small]

theorem small_fit (a : ℝ) : variation (fun s : Fin 2 × Fin 2 => ((s.1 : ℕ) : ℝ) + ((s.2 : ℕ) : ℝ)) ≤
    ∑ s : Fin 2 × Fin 2, (((s.1 : ℕ) : ℝ) + ((s.2 : ℕ) : ℝ) - a) ^ 2 := by
  simp only [variation, avg, Fintype.sum_prod_type, Fin.sum_univ_two]
  norm_num
  nlinarith [sq_nonneg (a - 1)]

/-- A single variable is not explained by a constant. -/
theorem small_sampled : guardrail small {} (fun _ => false) = .ok () := by
  rw [sampling_allowed_iff _ _ _ (by norm_num) (by norm_num)]
  refine ⟨fun _ => rfl, small_kpi, ?_, ?_⟩
  · rintro (⟨h, _⟩ | ⟨_, i, hsp, hv, J, hJ, hp⟩)
    · cases h
    · have hJ0 : J = ∅ := by
        ext j
        rw [hJ j]
        have : j = i := Subsingleton.elim (α := Fin 1) j i
        simp [this]
      subst hJ0
      obtain ⟨a, b, hlt⟩ := hp
      simp only [Finset.sum_empty, add_zero] at hlt
      have hle : variation (small.overall i) ≤ ∑ s, (small.overall i s - a) ^ 2 := small_fit a
      have hpos := (variation_pos _).2 hv
      have h2 : (1 : ℝ) / 1000 * variation (small.overall i) < variation (small.overall i) := by
        linarith
      exact absurd (hlt.trans h2) (not_lt.2 hle)
  · rintro (⟨h, _⟩ | ⟨_, i, j, hij, _⟩)
    · cases h
    · have : i = j := Subsingleton.elim (α := Fin 1) i j
      exact absurd hij (by rw [this]; exact lt_irrefl _)

example : ∃ d : Data, ∃ cs, guardrail d {} (fun _ => false) = .error cs ∧
    .kpiInvariability ∈ cs := by
  obtain ⟨d, _, _, hd⟩ := varying_kpi_may_fail
  cases h : guardrail d {} (fun _ => false) with
  | ok u => exact absurd h (constant_kpi_never_sampled d {} _ hd)
  | error cs =>
    exact ⟨d, cs, h, ((guardrail_names d {} _ cs (by norm_num) (by norm_num) h _).1).2 (Or.inr hd)⟩

end Verif.Eda.Props
