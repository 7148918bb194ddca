import Verif.Model.Eda
import Verif.Spec.Eda
import Verif.Lemmas.Transformers
import Mathlib.Tactic
import Mathlib.Analysis.Normed.Module.FiniteDimension
import Mathlib.Analysis.InnerProductSpace.Basic

namespace Verif.Eda

open Finset Spec

variable {ι : Type} [Fintype ι] {V : ℕ}

theorem mean_eq_avg (x : ι → ℝ) : mean x = avg x := rfl

theorem ss_eq (x y : ι → ℝ) : ss x y = covariation x y := rfl

theorem ss_self (x : ι → ℝ) : ss x x = variation x := by
  unfold ss variation
  exact Finset.sum_congr rfl fun s _ => by rw [mean_eq_avg]; ring

theorem variation_nonneg (x : ι → ℝ) : 0 ≤ variation x :=
  Finset.sum_nonneg fun _ _ => sq_nonneg _

theorem variation_eq_zero (x : ι → ℝ) : variation x = 0 ↔ ¬ Varies x := by
  unfold variation Varies
  rw [Finset.sum_eq_zero_iff_of_nonneg fun _ _ => sq_nonneg _]
  push Not
  constructor
  · intro h s t
    have hs := pow_eq_zero_iff (two_ne_zero) |>.1 (h s (mem_univ s))
    have ht := pow_eq_zero_iff (two_ne_zero) |>.1 (h t (mem_univ t))
    linarith
  · intro h s _
    have hne : (Fintype.card ι : ℝ) ≠ 0 := by
      have : 0 < Fintype.card ι := Fintype.card_pos_iff.2 ⟨s⟩
      exact_mod_cast this.ne'
    have : avg x = x s := by
      unfold avg
      rw [Finset.sum_congr rfl fun t _ => h t s, Finset.sum_const, card_univ, nsmul_eq_mul,
        mul_div_assoc, mul_comm, div_mul_cancel₀ _ hne]
    rw [this]; ring

theorem variation_pos (x : ι → ℝ) : 0 < variation x ↔ Varies x := by
  rw [lt_iff_le_and_ne]
  constructor
  · rintro ⟨_, h⟩
    by_contra hv
    exact h ((variation_eq_zero x).2 hv).symm
  · intro h
    exact ⟨variation_nonneg x, fun h0 => (variation_eq_zero x).1 h0.symm h⟩

theorem card_pos_of_varies {x : ι → ℝ} (h : Varies x) : (0 : ℝ) < Fintype.card ι := by
  obtain ⟨s, _⟩ := h
  have : 0 < Fintype.card ι := Fintype.card_pos_iff.2 ⟨s⟩
  exact_mod_cast this

theorem std0_eq (x : ι → ℝ) : std0 x = Real.sqrt (variation x / Fintype.card ι) := by
  unfold std0; rw [ss_self]

theorem std0_eq_zero (x : ι → ℝ) : std0 x = 0 ↔ ¬ Varies x := by
  rw [std0_eq, Real.sqrt_eq_zero (div_nonneg (variation_nonneg x) (Nat.cast_nonneg _)),
    div_eq_zero_iff, variation_eq_zero]
  constructor
  · rintro (h | h)
    · exact h
    · intro hv
      exact (card_pos_of_varies hv).ne' h
  · exact Or.inl

theorem std0_mul {x y : ι → ℝ} (hx : Varies x) :
    Fintype.card ι * (std0 x * std0 y) = Real.sqrt (variation x * variation y) := by
  have hn := card_pos_of_varies hx
  rw [std0_eq, std0_eq, ← Real.sqrt_mul (div_nonneg (variation_nonneg x) hn.le)]
  have : variation x * variation y =
      (Fintype.card ι : ℝ) ^ 2 * (variation x / Fintype.card ι * (variation y / Fintype.card ι)) := by
    field_simp
  rw [this, Real.sqrt_mul (sq_nonneg _), Real.sqrt_sq hn.le]

theorem beyond_corr (r : ℝ) (x y : ι → ℝ) : beyond r (corr x y) ↔ Correlated r x y := by
  unfold corr Correlated
  by_cases hx : Varies x
  · by_cases hy : Varies y
    · have hx0 : std0 x ≠ 0 := fun h => (std0_eq_zero x).1 h hx
      have hy0 : std0 y ≠ 0 := fun h => (std0_eq_zero y).1 h hy
      rw [if_neg (mul_ne_zero hx0 hy0)]
      simp only [beyond, hx, hy, true_and]
      have hn := card_pos_of_varies hx
      have hpos : 0 < std0 x * std0 y :=
        mul_pos (lt_of_le_of_ne (Real.sqrt_nonneg _) hx0.symm)
          (lt_of_le_of_ne (Real.sqrt_nonneg _) hy0.symm)
      rw [div_div, std0_mul hx, ss_eq, abs_div]
      have hs : 0 < Real.sqrt (variation x * variation y) :=
        Real.sqrt_pos.2 (mul_pos ((variation_pos x).2 hx) ((variation_pos y).2 hy))
      rw [abs_of_pos hs, lt_div_iff₀ hs]
    · have : std0 y = 0 := (std0_eq_zero y).2 hy
      rw [if_pos (by rw [this, mul_zero])]
      simp [beyond, hy]
  · have : std0 x = 0 := (std0_eq_zero x).2 hx
    rw [if_pos (by rw [this, zero_mul])]
    simp [beyond, hx]

theorem mem_extremePairs (x : Fin V → ι → ℝ) (r : ℝ) (i j : Fin V) :
    (i, j) ∈ extremePairs x r ↔ i < j ∧ Correlated r (x i) (x j) := by
  simp [extremePairs, List.mem_filter, beyond_corr]

theorem extremePairs_ne_nil (x : Fin V → ι → ℝ) (r : ℝ) :
    extremePairs x r ≠ [] ↔ SomePair r x := by
  constructor
  · intro h
    obtain ⟨⟨i, j⟩, hp⟩ := List.exists_mem_of_ne_nil _ h
    exact ⟨i, j, (mem_extremePairs x r i j).1 hp⟩
  · rintro ⟨i, j, h⟩
    exact List.ne_nil_of_mem ((mem_extremePairs x r i j).2 h)

/-- Cauchy-Schwarz. -/
theorem covariation_sq_le (x y : ι → ℝ) :
    covariation x y ^ 2 ≤ variation x * variation y :=
  Finset.sum_mul_sq_le_sq_mul_sq univ (fun s => x s - avg x) fun s => y s - avg y

theorem abs_covariation_le (x y : ι → ℝ) :
    |covariation x y| ≤ Real.sqrt (variation x * variation y) := by
  rw [← Real.sqrt_sq_eq_abs]
  exact Real.sqrt_le_sqrt (covariation_sq_le x y)

theorem avg_affine {x y : ι → ℝ} {a b : ℝ} (h : ∀ s, y s = a + b * x s) (s₀ : ι) :
    avg y = a + b * avg x := by
  have hne : (Fintype.card ι : ℝ) ≠ 0 := by
    have : 0 < Fintype.card ι := Fintype.card_pos_iff.2 ⟨s₀⟩
    exact_mod_cast this.ne'
  unfold avg
  rw [Finset.sum_congr rfl fun s _ => h s, Finset.sum_add_distrib, Finset.sum_const, card_univ,
    nsmul_eq_mul, ← Finset.mul_sum]
  field_simp

theorem variation_affine {x y : ι → ℝ} {a b : ℝ} (h : ∀ s, y s = a + b * x s) :
    variation y = b ^ 2 * variation x := by
  unfold variation
  rw [Finset.mul_sum]
  refine Finset.sum_congr rfl fun s _ => ?_
  rw [avg_affine h s, h s]; ring

theorem covariation_affine {x y x' y' : ι → ℝ} {a b c d : ℝ} (h : ∀ s, x' s = a + b * x s)
    (h' : ∀ s, y' s = c + d * y s) : covariation x' y' = b * d * covariation x y := by
  unfold covariation
  rw [Finset.mul_sum]
  refine Finset.sum_congr rfl fun s _ => ?_
  rw [avg_affine h s, avg_affine h' s, h s, h' s]; ring

theorem covariation_self (x : ι → ℝ) : covariation x x = variation x := by
  rw [← ss_eq, ss_self]

theorem varies_affine {x y : ι → ℝ} {a b : ℝ} (hb : b ≠ 0) (h : ∀ s, y s = a + b * x s) :
    Varies y ↔ Varies x := by
  rw [← variation_pos, ← variation_pos, variation_affine h]
  have : 0 < b ^ 2 := by positivity
  exact mul_pos_iff_of_pos_left this

theorem correlated_affine {x y x' y' : ι → ℝ} {a b c d : ℝ} (hb : b ≠ 0) (hd : d ≠ 0)
    (h : ∀ s, x' s = a + b * x s) (h' : ∀ s, y' s = c + d * y s) (r : ℝ) :
    Correlated r x' y' ↔ Correlated r x y := by
  unfold Correlated
  rw [varies_affine hb h, varies_affine hd h', variation_affine h, variation_affine h',
    covariation_affine h h', abs_mul]
  have e : b ^ 2 * variation x * (d ^ 2 * variation y) =
      (b * d) ^ 2 * (variation x * variation y) := by ring
  rw [e, Real.sqrt_mul (sq_nonneg _), Real.sqrt_sq_eq_abs]
  have hp : 0 < |b * d| := abs_pos.2 (mul_ne_zero hb hd)
  rw [mul_left_comm]
  rw [mul_lt_mul_iff_right₀ hp]

/-! ### Variance inflation -/

theorem not_constant (τ : ℝ) (x : ι → ℝ) : ¬ Constant τ x ↔ Spread τ x := by
  unfold Constant Spread
  rw [std0_eq, not_lt]

theorem regressors_others (τ : ℝ) (x : Fin V → ι → ℝ) (i : Fin V) :
    Regressors τ x i (others x τ i) := by
  intro j
  simp [others, not_constant]

theorem regressors_unique {τ : ℝ} {x : Fin V → ι → ℝ} {i : Fin V} {J J' : Finset (Fin V)}
    (h : Regressors τ x i J) (h' : Regressors τ x i J') : J = J' := by
  ext j; rw [h j, h' j]

theorem residual_nonneg (x : Fin V → ι → ℝ) (J : Finset (Fin V)) (i : Fin V) (a : ℝ)
    (b : Fin V → ℝ) : 0 ≤ residual x J i a b := Finset.sum_nonneg fun _ _ => sq_nonneg _

theorem residual_bdd (x : Fin V → ι → ℝ) (J : Finset (Fin V)) (i : Fin V) :
    BddBelow {r | ∃ a b, r = residual x J i a b} := by
  refine ⟨0, ?_⟩
  rintro r ⟨a, b, rfl⟩
  exact residual_nonneg x J i a b

theorem rss_nonneg (x : Fin V → ι → ℝ) (J : Finset (Fin V)) (i : Fin V) : 0 ≤ rss x J i := by
  apply Real.sInf_nonneg
  rintro r ⟨a, b, rfl⟩
  exact residual_nonneg x J i a b

theorem rss_le (x : Fin V → ι → ℝ) (J : Finset (Fin V)) (i : Fin V) (a : ℝ) (b : Fin V → ℝ) :
    rss x J i ≤ residual x J i a b := csInf_le (residual_bdd x J i) ⟨a, b, rfl⟩

theorem rss_lt_iff (x : Fin V → ι → ℝ) (J : Finset (Fin V)) (i : Fin V) (c : ℝ) :
    rss x J i < c ↔ ∃ a b, residual x J i a b < c := by
  constructor
  · intro h
    obtain ⟨r, ⟨a, b, rfl⟩, hr⟩ := exists_lt_of_csInf_lt
      (⟨_, 0, 0, rfl⟩ : {r | ∃ a b, r = residual x J i a b}.Nonempty) h
    exact ⟨a, b, hr⟩
  · rintro ⟨a, b, h⟩
    exact lt_of_le_of_lt (rss_le x J i a b) h

theorem rss_le_variation (x : Fin V → ι → ℝ) (J : Finset (Fin V)) (i : Fin V) :
    rss x J i ≤ variation (x i) := by
  refine le_trans (rss_le x J i (avg (x i)) 0) (le_of_eq ?_)
  unfold residual variation
  simp

theorem vifBeyond_iff (θ τ : ℝ) (x : Fin V → ι → ℝ) (i : Fin V) :
    vifBeyond θ (vif x τ i) ↔ Spread τ (x i) ∧ Varies (x i) ∧
      θ * rss x (others x τ i) i < variation (x i) := by
  unfold vif
  by_cases hc : Constant τ (x i)
  · rw [if_pos hc]
    have : ¬ Spread τ (x i) := fun h => (not_constant τ (x i)).2 h hc
    simp [vifBeyond, this]
  rw [if_neg hc]
  have hsp := (not_constant τ (x i)).1 hc
  by_cases hv : Varies (x i)
  swap
  · rw [if_pos (by rw [ss_self]; exact (variation_eq_zero _).2 hv)]
    simp [vifBeyond, hv]
  have hpos := (variation_pos (x i)).2 hv
  rw [if_neg (by rw [ss_self]; exact hpos.ne')]
  simp only [hsp, hv, true_and]
  have hr := rss_nonneg x (others x τ i) i
  rw [ss_self]
  set R := rss x (others x τ i) i with hR
  have e : 1 - (1 - R / variation (x i)) = R / variation (x i) := by ring
  rw [e]
  by_cases h0 : R = 0
  · rw [if_pos (by rw [h0, zero_div]), h0, mul_zero]
    simp only [vifBeyond]
    exact ⟨fun _ => hpos, fun _ => WithTop.coe_lt_top θ⟩
  · have hRpos : 0 < R := lt_of_le_of_ne hr (Ne.symm h0)
    rw [if_neg (div_ne_zero h0 hpos.ne')]
    simp only [vifBeyond]
    rw [WithTop.coe_lt_coe, one_div_div, lt_div_iff₀ hRpos]

theorem vifBeyond_inflated {θ : ℝ} (hθ : 0 < θ) (τ : ℝ) (x : Fin V → ι → ℝ) (i : Fin V) :
    vifBeyond θ (vif x τ i) ↔ Inflated τ θ x i := by
  rw [vifBeyond_iff]
  unfold Inflated
  refine and_congr_right fun _ => and_congr_right fun _ => ?_
  have key : ∀ J, (θ * rss x J i < variation (x i) ↔ PredictedUpTo (1 / θ) x J i) := by
    intro J
    unfold PredictedUpTo
    rw [mul_comm, ← lt_div_iff₀ hθ, rss_lt_iff]
    have : variation (x i) / θ = 1 / θ * variation (x i) := by ring
    rw [this]
    rfl
  constructor
  · intro h
    exact ⟨_, regressors_others τ x i, (key _).1 h⟩
  · rintro ⟨J, hJ, h⟩
    rw [regressors_unique (regressors_others τ x i) hJ]
    exact (key J).2 h

theorem mem_extremeVifs {θ : ℝ} (hθ : 0 < θ) (τ : ℝ) (x : Fin V → ι → ℝ) (i : Fin V) :
    i ∈ extremeVifs x τ θ ↔ Inflated τ θ x i := by
  simp [extremeVifs, List.mem_filter, vifBeyond_inflated hθ]

theorem extremeVifs_ne_nil {θ : ℝ} (hθ : 0 < θ) (τ : ℝ) (x : Fin V → ι → ℝ) :
    extremeVifs x τ θ ≠ [] ↔ SomeInflated τ θ x := by
  constructor
  · intro h
    obtain ⟨i, hi⟩ := List.exists_mem_of_ne_nil _ h
    exact ⟨i, (mem_extremeVifs hθ τ x i).1 hi⟩
  · rintro ⟨i, h⟩
    exact List.ne_nil_of_mem ((mem_extremeVifs hθ τ x i).2 h)

/-- The residual sum is attained as zero. -/
theorem redundant_of_rss_zero (x : Fin V → ι → ℝ) (J : Finset (Fin V)) (i : Fin V)
    (h : rss x J i = 0) : Redundant x J i := by
  classical
  let one : ι → ℝ := fun _ => 1
  let S : Submodule ℝ (ι → ℝ) := Submodule.span ℝ ((J.image x : Finset (ι → ℝ)) ∪ {one})
  have hfin : FiniteDimensional ℝ S := by
    apply FiniteDimensional.span_of_finite
    exact (Finset.finite_toSet _).union (Set.finite_singleton _)
  have hcl : IsClosed (S : Set (ι → ℝ)) := Submodule.closed_of_finiteDimensional S
  have hin : ∀ (a : ℝ) (b : Fin V → ℝ), (fun s => a + ∑ j ∈ J, b j * x j s) ∈ S := by
    intro a b
    have e : (fun s => a + ∑ j ∈ J, b j * x j s) = a • one + ∑ j ∈ J, b j • x j := by
      funext s
      simp [one, Finset.sum_apply]
    rw [e]
    refine S.add_mem (S.smul_mem _ (Submodule.subset_span (Or.inr rfl))) ?_
    refine S.sum_mem fun j hj => S.smul_mem _ (Submodule.subset_span (Or.inl ?_))
    exact Finset.mem_coe.2 (Finset.mem_image_of_mem x hj)
  have hout : ∀ y ∈ S, ∃ (a : ℝ) (b : Fin V → ℝ), ∀ s, y s = a + ∑ j ∈ J, b j * x j s := by
    intro y hy
    refine Submodule.span_induction (p := fun y _ => ∃ (a : ℝ) (b : Fin V → ℝ), ∀ s, y s =
      a + ∑ j ∈ J, b j * x j s) ?_ ?_ ?_ ?_ hy
    · rintro y (hy | hy)
      · obtain ⟨j, hj, rfl⟩ := Finset.mem_image.1 (Finset.mem_coe.1 hy)
        refine ⟨0, fun k => if k = j then 1 else 0, fun s => ?_⟩
        simp [Finset.sum_ite_eq', hj]
      · rw [Set.mem_singleton_iff] at hy
        subst hy
        exact ⟨1, fun _ => 0, fun s => by simp [one]⟩
    · exact ⟨0, fun _ => 0, fun s => by simp⟩
    · rintro y z _ _ ⟨a, b, h1⟩ ⟨c, d, h2⟩
      refine ⟨a + c, fun j => b j + d j, fun s => ?_⟩
      rw [Pi.add_apply, h1, h2]
      simp only [add_mul, Finset.sum_add_distrib]
      ring
    · rintro c y _ ⟨a, b, h1⟩
      refine ⟨c * a, fun j => c * b j, fun s => ?_⟩
      rw [Pi.smul_apply, h1, smul_eq_mul, mul_add, Finset.mul_sum]
      simp only [mul_assoc]
  have hmem : x i ∈ S := by
    rw [← SetLike.mem_coe, ← hcl.closure_eq, Metric.mem_closure_iff]
    intro ε hε
    have hlt : rss x J i < ε ^ 2 := by rw [h]; positivity
    obtain ⟨a, b, hab⟩ := (rss_lt_iff x J i _).1 hlt
    refine ⟨_, hin a b, ?_⟩
    rw [dist_pi_lt_iff hε]
    intro s
    rw [Real.dist_eq]
    refine abs_lt_of_sq_lt_sq (lt_of_le_of_lt ?_ hab) hε.le
    exact Finset.single_le_sum (f := fun s => (x i s - (a + ∑ j ∈ J, b j * x j s)) ^ 2)
      (fun _ _ => sq_nonneg _) (mem_univ s)
  exact hout _ hmem

theorem rss_zero_of_redundant (x : Fin V → ι → ℝ) (J : Finset (Fin V)) (i : Fin V)
    (h : Redundant x J i) : rss x J i = 0 := by
  obtain ⟨a, b, hab⟩ := h
  apply le_antisymm _ (rss_nonneg x J i)
  refine le_trans (rss_le x J i a b) (le_of_eq ?_)
  unfold residual
  apply Finset.sum_eq_zero
  intro s _
  rw [← hab s]; ring

theorem covariation_sub {x y : ι → ℝ} (c : ℝ) :
    ∑ s, ((x s - avg x) - c * (y s - avg y)) ^ 2 =
      variation x - 2 * c * covariation x y + c ^ 2 * variation y := by
  unfold variation covariation
  rw [Finset.mul_sum, Finset.mul_sum, ← Finset.sum_sub_distrib, ← Finset.sum_add_distrib]
  exact Finset.sum_congr rfl fun s _ => by ring

/-- Simple regression on one column. -/
theorem rss_le_simple (x : Fin V → ι → ℝ) (J : Finset (Fin V)) (i j : Fin V) (hj : j ∈ J)
    (hv : Varies (x j)) :
    rss x J i * variation (x j) ≤ variation (x i) * variation (x j) -
      covariation (x i) (x j) ^ 2 := by
  classical
  have hpos := (variation_pos (x j)).2 hv
  set c := covariation (x i) (x j) / variation (x j) with hc
  have h1 := rss_le x J i (avg (x i) - c * avg (x j)) (fun k => if k = j then c else 0)
  have h2 : residual x J i (avg (x i) - c * avg (x j)) (fun k => if k = j then c else 0) =
      variation (x i) - 2 * c * covariation (x i) (x j) + c ^ 2 * variation (x j) := by
    rw [← covariation_sub]
    unfold residual
    refine Finset.sum_congr rfl fun s _ => ?_
    simp only [ite_mul, zero_mul, Finset.sum_ite_eq', hj, if_true]
    ring
  rw [h2] at h1
  have h3 := mul_le_mul_of_nonneg_right h1 hpos.le
  refine le_trans h3 (le_of_eq ?_)
  rw [hc]
  field_simp
  ring

/-! ### Variability of the KPI -/

theorem sum_fin_prod {G T : ℕ} (f : ℕ → ℕ → ℝ) :
    ∑ s : Fin G × Fin T, f s.1 s.2 = ∑ g ∈ range G, ∑ t ∈ range T, f g t := by
  rw [Fintype.sum_prod_type, ← Fin.sum_univ_eq_sum_range (fun g => ∑ t ∈ range T, f g t) G]
  exact Finset.sum_congr rfl fun g _ => by rw [← Fin.sum_univ_eq_sum_range (f g) T]

end Verif.Eda
