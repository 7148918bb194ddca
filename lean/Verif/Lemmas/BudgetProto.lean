import Verif.Lemmas.Optimizer2
import Verif.Props.GridSearch
import Mathlib.Tactic

/-! The search on a grid a user may have passed, and its bounds once more from the rounded spend. -/

namespace Verif.Optimizer

open Verif Verif.GridSearch Verif.GridSearch.Spec Finset

theorem roundedSpend_idem {rf : ℤ} (h : rf ≤ 0) (sp : ℕ → ℚ) (c : ℕ) (y : ℚ)
    (hy : y = roundedSpend sp rf c) : truncInt (npRound y rf) = roundedSpend sp rf c := by
  subst hy
  rw [trunc_npRound h]
  unfold roundedSpend
  rw [trunc_npRound h]
  have hs : (stepSize rf : ℚ) ≠ 0 := by exact_mod_cast (stepSize_pos rf).ne'
  push_cast
  rw [mul_div_assoc, div_self hs, mul_one, rint_intCast]

/-- Bounds computed from the rounded spend are those computed from the spend. -/
theorem bounds_of_rounded {n : ℕ} {sp sp' : ℕ → ℚ} {rf : ℤ} {l u : List ℚ} (h : rf ≤ 0)
    {lo hi lo' hi' : ℕ → ℤ} (hb : getOptimizationBounds n sp rf l u = .ok (lo, hi))
    (hb' : getOptimizationBounds n sp' rf l u = .ok (lo', hi')) {c : ℕ}
    (hsp : sp' c = roundedSpend sp rf c) : lo' c = lo c ∧ hi' c = hi c := by
  unfold getOptimizationBounds at hb hb'
  simp only [bind_ok] at hb hb'
  obtain ⟨_, _, hb⟩ := hb
  obtain ⟨_, _, hb'⟩ := hb'
  injection hb with hb
  injection hb' with hb'
  injection hb with h1 h2
  injection hb' with h3 h4
  have e : roundedSpend sp' rf c = roundedSpend sp rf c := roundedSpend_idem h sp c _ hsp
  rw [← h1, ← h2, ← h3, ← h4]
  simp only [e, and_self]

theorem covered_low {G : Grid} {s : ℤ} {K : ℕ → ℕ} {base : ℕ → ℤ} {f : ℕ → ℕ → ℚ} {lo hi : ℕ → ℤ}
    (hs : 0 < s) (hG : RegularBoth G s K base f) (h : boundsCovered G lo hi = true) {c : ℕ} (hc : c < G.cols) :
    base c ≤ lo c ∧ hi c ≤ base c + K c * s := by
  unfold boundsCovered at h
  rw [List.all_eq_true] at h
  have h := h c (List.mem_range.2 hc)
  rw [Bool.and_eq_true] at h
  have hKr := hG.reg.K_lt c hc
  have hsq : (0 : ℚ) < s := by exact_mod_cast hs
  have hmem : ∀ x ∈ (List.range G.rows).filterMap (G.spend · c), (base c : ℚ) ≤ x ∧ x ≤ base c + K c * s := by
    intro x hx
    rw [List.mem_filterMap] at hx
    obtain ⟨r, hr, hx⟩ := hx
    have hr := List.mem_range.1 hr
    rcases spend_cases hG hc hr with ⟨g1, g2, -⟩ | ⟨g1, g2, -⟩
    · rw [g2] at hx
      injection hx with hx
      rw [← hx]
      have h1 : (r : ℚ) ≤ K c := by exact_mod_cast g1
      have h2 : (0 : ℚ) ≤ r * s := by positivity
      refine ⟨by linarith, ?_⟩
      have : (r : ℚ) * s ≤ K c * s := by gcongr
      linarith
    · rw [g2] at hx; cases hx
  constructor
  · cases hm : colMin G c with
    | none =>
      exfalso
      unfold colMin at hm
      rw [List.min?_eq_none_iff] at hm
      have : (base c : ℚ) ∈ (List.range G.rows).filterMap (G.spend · c) := by
        rw [List.mem_filterMap]
        exact ⟨0, List.mem_range.2 (by omega), by simpa using hG.reg.spend_eq c hc 0 (Nat.zero_le _)⟩
      rw [hm] at this; cases this
    | some m =>
      have h1 := h.1
      rw [hm] at h1
      simp only [Bool.not_eq_true', decide_eq_false_iff_not, not_lt] at h1
      unfold colMin at hm
      rw [List.min?_eq_some_iff] at hm
      have := (hmem m hm.1).1
      exact_mod_cast le_trans this h1
  · cases hm : colMax G c with
    | none =>
      exfalso
      unfold colMax at hm
      rw [List.max?_eq_none_iff] at hm
      have : (base c : ℚ) ∈ (List.range G.rows).filterMap (G.spend · c) := by
        rw [List.mem_filterMap]
        exact ⟨0, List.mem_range.2 (by omega), by simpa using hG.reg.spend_eq c hc 0 (Nat.zero_le _)⟩
      rw [hm] at this; cases this
    | some m =>
      have h2 := h.2
      rw [hm] at h2
      simp only [Bool.not_eq_true', decide_eq_false_iff_not, not_lt] at h2
      unfold colMax at hm
      rw [List.max?_eq_some_iff] at hm
      have := (hmem m hm.1).2
      exact_mod_cast le_trans h2 this

theorem trim_ok_covered {G G' : Grid} {lo hi : ℕ → ℤ} (h : trimGrids G lo hi = .ok G') :
    boundsCovered G lo hi = true := by
  unfold trimGrids at h
  by_contra hc
  rw [if_pos hc] at h
  cases h

/-- One run of the search on any grid with steps of its round factor: the allocation is made of whole steps
between the bounds. -/
theorem optimize_within {O : OptGrid} {req : Request} {lower upper : Option (List ℚ)} {xs : List (Option ℤ)}
    {non : List ℤ} {K : ℕ → ℕ} {base : ℕ → ℤ} {f : ℕ → ℕ → ℚ} (hrf : O.roundFactor ≤ 0)
    (hhist : ∀ c < O.grid.cols, 0 ≤ O.hist c)
    (hG : RegularBoth O.grid (stepSize O.roundFactor) K base f)
    (hbase : ∀ c < O.grid.cols, stepSize O.roundFactor ∣ base c)
    (h : optimize O req none lower upper = .ok (xs, non)) :
    ∃ (sp : ℕ → ℚ) (lo hi : ℕ → ℤ), (∀ c < O.grid.cols, 0 ≤ sp c) ∧
      (∀ c, sp c * histTotal O.grid.cols O.hist =
        resolveBudget req.budget (histTotal O.grid.cols O.hist) * O.hist c) ∧
      histTotal O.grid.cols O.hist ≠ 0 ∧
      getOptimizationBounds O.grid.cols sp O.roundFactor
        (lower.getD [req.defaultConstraint]) (upper.getD [req.defaultConstraint]) = .ok (lo, hi) ∧
      xs.length = O.grid.cols ∧ non.length = O.grid.cols ∧
      ∀ c < O.grid.cols, non[c]? = some (roundedSpend sp O.roundFactor c) ∧
        lo c ≤ roundedSpend sp O.roundFactor c ∧ roundedSpend sp O.roundFactor c ≤ hi c ∧
        ∃ x : ℤ, xs[c]? = some (some x) ∧ lo c ≤ x ∧ x ≤ hi c ∧ stepSize O.roundFactor ∣ x := by
  obtain ⟨share, lo, hi, rf', G', q1, q2, q3, q4, q5, q6⟩ := optimize_ok h
  obtain ⟨-, -, hb⟩ := getRoundFactor_ok q3
  have hs := stepSize_pos O.roundFactor
  have hshare : ∀ c < O.grid.cols, 0 ≤ share c := by
    intro c hc
    unfold validatePctOfSpend at q1
    simp only at q1
    split_ifs at q1
    injection q1 with q1
    rw [← q1]
    refine div_nonneg (hhist c hc) ?_
    rw [sum_list_range]
    exact Finset.sum_nonneg fun i hi => hhist i (mem_range.1 hi)
  have hprop : histTotal O.grid.cols O.hist ≠ 0 ∧ ∀ c, share c * histTotal O.grid.cols O.hist = O.hist c := by
    unfold validatePctOfSpend at q1
    simp only at q1
    split_ifs at q1 with h0
    injection q1 with q1
    refine ⟨h0, fun c => ?_⟩
    rw [← q1]
    exact div_mul_cancel₀ _ h0
  have hsp : ∀ c < O.grid.cols, 0 ≤ resolveBudget req.budget (histTotal O.grid.cols O.hist) * share c :=
    fun c hc => mul_nonneg hb.le (hshare c hc)
  have facts := fun c hc => bounds_facts hrf q2 (c := c) hc (hsp c hc)
  have hcov := fun c hc => covered_low hs hG (trim_ok_covered q4) (c := c) hc
  have ha : ∀ c < O.grid.cols, ∃ a b : ℕ, lo c = base c + a * stepSize O.roundFactor ∧
      hi c = base c + b * stepSize O.roundFactor ∧ a ≤ b ∧ b ≤ K c := by
    intro c hc
    obtain ⟨f1, f2, f3, f4, f5, f6, -⟩ := facts c hc
    obtain ⟨c1, c2⟩ := hcov c hc
    obtain ⟨a, ha⟩ := exists_steps hs (hbase c hc) f1 c1
    obtain ⟨b, hb⟩ := exists_steps hs (hbase c hc) f2 (le_trans c1 (le_trans f5 f6))
    refine ⟨a, b, by linarith, by linarith, ?_, ?_⟩
    · have : (a : ℤ) * stepSize O.roundFactor ≤ b * stepSize O.roundFactor := by linarith
      exact_mod_cast le_of_mul_le_mul_right this hs
    · have : (b : ℤ) * stepSize O.roundFactor ≤ K c * stepSize O.roundFactor := by linarith
      exact_mod_cast le_of_mul_le_mul_right this hs
  choose! a b ha1 ha2 ha3 ha4 using ha
  obtain ⟨G'', t1, t2, t3⟩ := trimGrids_regular hs hG ha1 ha2 ha3 ha4
  rw [q4] at t1
  injection t1 with t1
  subst t1
  have h0f : FirstRowFinite G' := fun c hc => ⟨_, t3.reg.spend_eq c hc 0 (Nat.zero_le _)⟩
  obtain ⟨k, hk⟩ := GridSearch.Props.spend_is_grid_value G' _ xs h0f q5
  refine ⟨_, lo, hi, hsp, fun c => by rw [mul_assoc, hprop.2], hprop.1, q2, by rw [hk.1, t2], by rw [q6]; simp, ?_⟩
  intro c hc
  obtain ⟨f1, f2, f3, f4, f5, f6, -⟩ := facts c hc
  refine ⟨by rw [q6]; simp [hc], f5, f6, ?_⟩
  have hc' : c < G'.cols := by rw [t2]; exact hc
  obtain ⟨hr, t, ht, hx⟩ := hk.2 c hc'
  rcases spend_cases t3 hc' hr with ⟨g1, g2, -⟩ | ⟨g1, g2, -⟩
  · rw [g2] at ht
    injection ht with ht
    have e : t = ((lo c + k c * stepSize O.roundFactor : ℤ) : ℚ) := by rw [← ht]; push_cast; ring
    rw [e, truncInt_intCast] at hx
    have g1' : (k c : ℤ) ≤ b c - a c := by
      have := ha3 c hc
      omega
    refine ⟨_, hx, ?_, ?_, dvd_add f1 (Dvd.intro_left _ rfl)⟩
    · have : 0 ≤ (k c : ℤ) * stepSize O.roundFactor := by positivity
      linarith
    · have h1 := ha1 c hc
      have h2 := ha2 c hc
      have : (k c : ℤ) * stepSize O.roundFactor ≤ ((b c : ℤ) - a c) * stepSize O.roundFactor := by gcongr
      linarith
  · rw [g2] at ht; cases ht

end Verif.Optimizer
