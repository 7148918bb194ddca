import Mathlib.Tactic
import Verif.Model.Calibration
import Verif.Spec.Calibration
import Verif.Lemmas.EdaStd
import Verif.Props.Review
import Verif.Props.EdaMore

/-!
# Lemmas on the calibration checks
-/

namespace Verif.Calibration

open Verif.Calibration.Spec Verif.Interval Verif.Interval.Spec Verif.Interval.Props
open Verif.Review (spendShare plausCase PlausCase)

/-! ### The narrowest interval -/

theorem inside_sorted (x : List ℚ) (a b : ℚ) : inside (sorted x) a b = inside x a b :=
  (sorted_perm x).countP_eq _

/-- Draws between two ranks are inside. -/
theorem inside_ranks {x : List ℚ} {i k : ℕ} (h : i + k < x.length) :
    k + 1 ≤ inside x ((sorted x).getD i 0) ((sorted x).getD (i + k) 0) := by
  rw [← inside_sorted]
  have hl := sorted_length x
  have hsub : (((sorted x).drop i).take (k + 1)).Sublist (sorted x) :=
    (List.take_sublist _ _).trans (List.drop_sublist _ _)
  have h1 : (((sorted x).drop i).take (k + 1)).countP (fun a => decide ((sorted x).getD i 0 ≤ a ∧
      a ≤ (sorted x).getD (i + k) 0)) = (((sorted x).drop i).take (k + 1)).length := by
    rw [List.countP_eq_length]
    intro a ha
    obtain ⟨j, hj, rfl⟩ := List.getElem_of_mem ha
    rw [List.length_take, List.length_drop] at hj
    rw [List.getElem_take, List.getElem_drop]
    have e : (sorted x)[i + j]'(by omega) = (sorted x).getD (i + j) 0 :=
      (List.getD_eq_getElem _ _ (by omega)).symm
    rw [e, decide_eq_true_eq]
    exact ⟨sorted_mono x (by omega) (by omega), sorted_mono x (by omega) (by omega)⟩
  have h2 := hsub.countP_le (p := fun a => decide ((sorted x).getD i 0 ≤ a ∧
      a ≤ (sorted x).getD (i + k) 0))
  rw [h1, List.length_take, List.length_drop] at h2
  unfold inside
  omega

/-- An interval with `k + 1` draws spans `k` ranks. -/
theorem span_of_inside {x : List ℚ} {a b : ℚ} {k : ℕ} (h : k + 1 ≤ inside x a b) :
    ∃ i, i + k < x.length ∧ a ≤ (sorted x).getD i 0 ∧ (sorted x).getD (i + k) 0 ≤ b := by
  rw [← inside_sorted] at h
  have hl := sorted_length x
  have hs := sorted_pairwise x
  -- the sublist of draws inside
  have hsub := List.filter_sublist (p := fun c => decide (a ≤ c ∧ c ≤ b)) (l := sorted x)
  unfold inside at h
  rw [List.countP_eq_length_filter] at h
  obtain ⟨f, hf⟩ := List.sublist_iff_exists_orderEmbedding_getElem?_eq.1 hsub
  set s := sorted x
  set u := s.filter fun c => decide (a ≤ c ∧ c ≤ b)
  have hf0 : ∀ j (hj : j < u.length), ∃ h' : f j < s.length, s[f j] = u[j] := by
    intro j hj
    have := hf j
    rw [List.getElem?_eq_getElem hj] at this
    obtain ⟨h', e⟩ := List.getElem?_eq_some_iff.1 this.symm
    exact ⟨h', e⟩
  obtain ⟨p0, e0⟩ := hf0 0 (by omega)
  obtain ⟨pk, ek⟩ := hf0 k (by omega)
  have hmono : ∀ j, f 0 + j ≤ f j := by
    intro j
    induction j with
    | zero => simp
    | succ j ih =>
      have : f j < f (j + 1) := f.lt_iff_lt.2 (Nat.lt_succ_self j)
      omega
  have m0 : u[0]'(by omega) ∈ u := List.getElem_mem _
  have mk : u[k]'(by omega) ∈ u := List.getElem_mem _
  have q0 := (List.mem_filter.1 m0).2
  have qk := (List.mem_filter.1 mk).2
  rw [decide_eq_true_eq] at q0 qk
  have hk := hmono k
  refine ⟨f 0, by omega, ?_, ?_⟩
  · rw [List.getD_eq_getElem _ _ p0, e0]; exact q0.1
  · have := sorted_mono x (i := f 0 + k) (j := f k) hk (by omega)
    refine this.trans ?_
    rw [List.getD_eq_getElem _ _ pk]
    exact (le_of_eq ek).trans qk.2

theorem inc_facts {prob : ℚ} (h0 : 0 ≤ prob) (n m : ℕ) :
    prob * n < (m : ℚ) ↔ ⌊prob * n⌋.toNat + 1 ≤ m := by
  have hn : (0 : ℚ) ≤ prob * n := by positivity
  obtain ⟨f1, f2⟩ := floor_toNat hn
  constructor
  · intro h
    have : ((⌊prob * n⌋.toNat : ℕ) : ℚ) < m := lt_of_le_of_lt f1 h
    have : ⌊prob * n⌋.toNat < m := by exact_mod_cast this
    omega
  · intro h
    have : ((⌊prob * n⌋.toNat : ℕ) : ℚ) + 1 ≤ m := by exact_mod_cast h
    linarith

theorem hdi_none {prob : ℚ} (h0 : 0 ≤ prob) (x : List ℚ) :
    hdi prob x = none ↔ x = [] ∨ 1 ≤ prob := by
  unfold hdi
  simp only [Option.map_eq_none_iff, List.argmin_eq_none, List.range_eq_nil]
  rw [Nat.sub_eq_zero_iff_le]
  have := inc_facts h0 x.length x.length
  constructor
  · intro h
    by_contra hc
    push Not at hc
    have hl : 0 < x.length := List.length_pos_iff.2 hc.1
    have hq : (0 : ℚ) < x.length := by exact_mod_cast hl
    have : prob * x.length < (x.length : ℚ) := by nlinarith [hc.2]
    have := (inc_facts h0 x.length x.length).1 this
    omega
  · rintro (h | h)
    · subst h; simp
    · by_contra hc
      have h1 := this.2 (by omega)
      have hq : (0 : ℚ) ≤ x.length := by positivity
      nlinarith

theorem hdi_narrowest {prob : ℚ} (h0 : 0 ≤ prob) {x : List ℚ} {lo hi : ℚ}
    (h : hdi prob x = some (lo, hi)) :
    lo ∈ x ∧ hi ∈ x ∧ lo ≤ hi ∧ prob * x.length < inside x lo hi ∧ Narrowest prob x (hi - lo) := by
  unfold hdi at h
  simp only [Option.map_eq_some_iff, Prod.mk.injEq] at h
  obtain ⟨i, hi', rfl, rfl⟩ := h
  have hmem := List.argmin_mem hi'
  rw [List.mem_range] at hmem
  set k := ⌊prob * x.length⌋.toNat with hk
  have hlt : i + k < x.length := by omega
  have hin := inside_ranks hlt
  have hin' := (inc_facts h0 x.length _).2 hin
  have hget : ∀ j, j < x.length → (sorted x).getD j 0 ∈ x := by
    intro j hj
    have hj' : j < (sorted x).length := by rw [sorted_length]; exact hj
    rw [List.getD_eq_getElem _ _ hj', ← (sorted_perm x).mem_iff]
    exact List.getElem_mem _
  refine ⟨hget _ (by omega), hget _ hlt, sorted_mono x (by omega) hlt, hin',
    ⟨_, _, rfl, hin'⟩, ?_⟩
  intro a b hab
  obtain ⟨j, hj, h1, h2⟩ := span_of_inside ((inc_facts h0 x.length _).1 hab)
  have hle := List.le_of_mem_argmin (List.mem_range.2 (show j < x.length - k by omega)) hi'
  linarith

theorem narrowest_unique {prob : ℚ} {x : List ℚ} {w w' : ℚ} (h : Narrowest prob x w)
    (h' : Narrowest prob x w') : w = w' := by
  obtain ⟨⟨a, b, e, hab⟩, hm⟩ := h
  obtain ⟨⟨a', b', e', hab'⟩, hm'⟩ := h'
  have := hm _ _ hab'
  have := hm' _ _ hab
  linarith

theorem isMedian_iff {x : List ℚ} (hx : x ≠ []) (m : ℚ) : IsMedian x m ↔ m = medianFin x := by
  unfold IsMedian
  rw [Verif.EdaStd.Props.isQuantile_iff hx (by norm_num) (by norm_num), medianFin_eq hx,
    quantileFin_eq hx (by norm_num) (by norm_num)]

/-! ### Shares -/

theorem spendShare_length (spend : List ℚ) : (spendShare spend).length = spend.length := by
  unfold spendShare; split_ifs <;> simp

theorem isShare_spendShare {spend : List ℚ} (h : ∀ s ∈ spend, 0 ≤ s) {i : ℕ}
    (hi : i < (spendShare spend).length) : IsShare spend i (spendShare spend)[i] := by
  obtain ⟨_, h2, _⟩ := Verif.Review.Props.spendShare_spec h
  have e : (spendShare spend)[i] = (spendShare spend).getD i 0 :=
    (List.getD_eq_getElem _ _ hi).symm
  by_cases h0 : 0 < spend.sum
  · exact Or.inl ⟨h0, by rw [e]; exact h2 i⟩
  · refine Or.inr ⟨le_antisymm (not_lt.1 h0) (List.sum_nonneg h), ?_⟩
    simp only [spendShare, if_neg h0, List.getElem_map]

theorem isShare_unique {spend : List ℚ} {i : ℕ} {s s' : ℚ} (h : IsShare spend i s)
    (h' : IsShare spend i s') : s = s' := by
  rcases h with ⟨h, e⟩ | ⟨h, e⟩ <;> rcases h' with ⟨h', e'⟩ | ⟨h', e'⟩
  · exact mul_right_cancel₀ h.ne' (e.trans e'.symm)
  · exact absurd h' h.ne'
  · exact absurd h h'.ne'
  · rw [e, e']

theorem isShare_nonneg {spend : List ℚ} (h : ∀ s ∈ spend, 0 ≤ s) {i : ℕ} {s : ℚ}
    (hs : IsShare spend i s) : 0 ≤ s := by
  rcases hs with ⟨hp, e⟩ | ⟨_, e⟩
  · have : 0 ≤ spend.getD i 0 := by
      by_cases hi : i < spend.length
      · rw [List.getD_eq_getElem _ _ hi]; exact h _ (List.getElem_mem _)
      · simp [List.getD, hi]
    rw [← e] at this
    exact nonneg_of_mul_nonneg_left this hp
  · exact e.ge

/-! ### High variance -/

theorem varChannels_ok {c : VarConfig} : ∀ {l : List ((String × List ℚ) × ℚ)} {rows : List VarChannel},
    varChannels c l = .ok rows ↔ List.Forall₂ (fun x r => varChannel c x = .ok r) l rows := by
  intro l
  induction l with
  | nil =>
    intro rows
    simp only [varChannels, List.forall₂_nil_left_iff]
    constructor
    · intro h; injection h with h; exact h.symm
    · rintro rfl; rfl
  | cons x l ih =>
    intro rows
    simp only [varChannels, List.forall₂_cons_left_iff]
    cases hx : varChannel c x with
    | error e => simp
    | ok r =>
      cases hl : varChannels c l with
      | error e =>
        simp only [reduceCtorEq, false_iff, not_exists, not_and]
        intro r' rs _ hrs _
        have := ih.2 hrs
        rw [hl] at this
        cases this
      | ok rs =>
        simp only [Except.ok.injEq]
        constructor
        · rintro rfl
          exact ⟨r, rs, rfl, ih.1 hl, rfl⟩
        · rintro ⟨r', rs', rfl, h2, rfl⟩
          have := ih.2 h2
          rw [hl] at this
          injection this with this
          rw [this]

theorem varChannel_error {c : VarConfig} {x : (String × List ℚ) × ℚ} {e : Err}
    (h : varChannel c x = .error e) : e = .tooFewDraws ∧ hdi c.prob x.1.2 = none := by
  unfold varChannel at h
  cases hh : hdi c.prob x.1.2 with
  | none => rw [hh] at h; injection h with h; exact ⟨h.symm, rfl⟩
  | some q => rw [hh] at h; cases h

theorem varChannels_error {c : VarConfig} : ∀ {l : List ((String × List ℚ) × ℚ)} {e : Err},
    varChannels c l = .error e → e = .tooFewDraws ∧ ∃ x ∈ l, hdi c.prob x.1.2 = none := by
  intro l
  induction l with
  | nil => intro e h; cases h
  | cons x l ih =>
    intro e h
    simp only [varChannels] at h
    cases hx : varChannel c x with
    | error e' =>
      rw [hx] at h
      injection h with h
      subst h
      obtain ⟨h1, h2⟩ := varChannel_error hx
      exact ⟨h1, x, List.mem_cons_self, h2⟩
    | ok r =>
      rw [hx] at h
      cases hl : varChannels c l with
      | error e' =>
        rw [hl] at h
        injection h with h
        subst h
        obtain ⟨h1, y, hy, h2⟩ := ih hl
        exact ⟨h1, y, List.mem_cons_of_mem _ hy, h2⟩
      | ok rs => rw [hl] at h; cases h

/-! ### Correlations -/

variable {G lead T : ℕ}

/-- The media data at the times of the controls. -/
def aligned (x : Fin G → Fin (lead + T) → ℝ) : Fin G → Fin T → ℝ := fun g t => x g (Fin.natAdd lead t)

theorem corrAt_none {x : Fin G → Fin (lead + T) → ℝ} {z : Fin G → Fin T → ℝ} {g : Fin G} :
    corrAt x z g = none ↔ ¬ Comparable (aligned x) z g := by
  unfold corrAt Comparable
  rw [Verif.EdaMore.Props.corr_none, not_and_or]
  rfl

theorem sqrt_pos {x z : Fin G → Fin T → ℝ} {g : Fin G} (h : Comparable x z g) :
    0 < Real.sqrt (Verif.Eda.Spec.variation (x g) * Verif.Eda.Spec.variation (z g)) :=
  Real.sqrt_pos.2 (mul_pos ((Verif.Eda.variation_pos _).2 h.1) ((Verif.Eda.variation_pos _).2 h.2))

theorem corrAt_some {x : Fin G → Fin (lead + T) → ℝ} {z : Fin G → Fin T → ℝ} {g : Fin G} {r : ℝ}
    (h : corrAt x z g = some r) : Comparable (aligned x) z g ∧
      r = Verif.Eda.Spec.covariation (aligned x g) (z g) /
        Real.sqrt (Verif.Eda.Spec.variation (aligned x g) * Verif.Eda.Spec.variation (z g)) := by
  have hc : Comparable (aligned x) z g := by
    by_contra hc
    rw [corrAt_none.2 hc] at h
    cases h
  have e := Verif.EdaMore.Props.corr_eq hc.1 hc.2
  refine ⟨hc, ?_⟩
  have h' : Verif.Eda.corr (aligned x g) (z g) = some r := h
  rw [e] at h'
  injection h' with h'
  exact h'.symm

theorem abs_lt_iff_below {x z : Fin G → Fin T → ℝ} {g : Fin G} (h : Comparable x z g) (r : ℝ) :
    |Verif.Eda.Spec.covariation (x g) (z g) /
        Real.sqrt (Verif.Eda.Spec.variation (x g) * Verif.Eda.Spec.variation (z g))| < r ↔
      Below r x z g := by
  unfold Below
  have hp := sqrt_pos h
  rw [abs_div, abs_of_pos hp, div_lt_iff₀ hp]

theorem mem_maxAbs {zs : List (String × (Fin G → Fin T → ℝ))} {x : Fin G → Fin (lead + T) → ℝ}
    {v : ℝ} : v ∈ ((List.finRange G).flatMap fun g => zs.filterMap fun z =>
        (corrAt x z.2 g).map (|·|)) ↔ ∃ g, ∃ z ∈ zs, ∃ r, corrAt x z.2 g = some r ∧ |r| = v := by
  simp only [List.mem_flatMap, List.mem_finRange, true_and, List.mem_filterMap, Option.map_eq_some_iff]

theorem maxAbs_none {zs : List (String × (Fin G → Fin T → ℝ))} {x : Fin G → Fin (lead + T) → ℝ} :
    maxAbs zs x = none ↔ ¬ SomewhereComparable (aligned x) (zs.map (·.2)) := by
  unfold maxAbs
  rw [List.argmax_eq_none, List.eq_nil_iff_forall_not_mem]
  constructor
  · rintro h ⟨z, hz, g, hc⟩
    obtain ⟨z', hz', rfl⟩ := List.mem_map.1 hz
    cases hr : corrAt x z'.2 g with
    | none => exact corrAt_none.1 hr hc
    | some r => exact h |r| (mem_maxAbs.2 ⟨g, z', hz', r, hr, rfl⟩)
  · intro h v hv
    obtain ⟨g, z, hz, r, hr, _⟩ := mem_maxAbs.1 hv
    exact h ⟨z.2, List.mem_map.2 ⟨z, hz, rfl⟩, g, (corrAt_some hr).1⟩

theorem maxAbs_some {zs : List (String × (Fin G → Fin T → ℝ))} {x : Fin G → Fin (lead + T) → ℝ}
    {m : ℝ} : maxAbs zs x = some m →
      (∃ g, ∃ z ∈ zs, ∃ r, corrAt x z.2 g = some r ∧ |r| = m) ∧
      ∀ g, ∀ z ∈ zs, ∀ r, corrAt x z.2 g = some r → |r| ≤ m := by
  unfold maxAbs
  intro h
  refine ⟨mem_maxAbs.1 (List.argmax_mem h), fun g z hz r hr => ?_⟩
  exact List.le_of_mem_argmax (f := id) (mem_maxAbs.2 ⟨g, z, hz, r, hr, rfl⟩) h

theorem low_iff {zs : List (String × (Fin G → Fin T → ℝ))}
    {x : String × (Fin G → Fin (lead + T) → ℝ)} {r : ℝ} :
    (biasChannel r zs x).low = true ↔
      SomewhereComparable (aligned x.2) (zs.map (·.2)) ∧ Unrelated r (aligned x.2) (zs.map (·.2)) := by
  unfold biasChannel
  simp only
  cases hm : maxAbs zs x.2 with
  | none =>
    have := maxAbs_none.1 hm
    simp [this]
  | some m =>
    obtain ⟨⟨g, z, hz, q, hq, e⟩, hall⟩ := maxAbs_some hm
    have hs : SomewhereComparable (aligned x.2) (zs.map (·.2)) := by
      by_contra hc
      rw [maxAbs_none.2 hc] at hm
      cases hm
    simp only [decide_eq_true_eq, hs, true_and]
    constructor
    · intro hlt z' hz' g' hc
      obtain ⟨z'', hz'', rfl⟩ := List.mem_map.1 hz'
      cases hr : corrAt x.2 z''.2 g' with
      | none => exact absurd hc (corrAt_none.1 hr)
      | some q' =>
        have := hall g' z'' hz'' q' hr
        obtain ⟨_, e'⟩ := corrAt_some hr
        rw [← abs_lt_iff_below hc, ← e']
        exact lt_of_le_of_lt this hlt
    · intro h
      obtain ⟨hc, e'⟩ := corrAt_some hq
      have := (abs_lt_iff_below hc r).2 (h z.2 (List.mem_map.2 ⟨z, hz, rfl⟩) g hc)
      rw [← e', e] at this
      exact this

end Verif.Calibration
