import Verif.Props.Optimizer

/-!
# C11: is a fixed budget spent in full?
-/

namespace Verif.Optimizer.Props

open Verif Verif.GridSearch Verif.GridSearch.Spec Verif.Optimizer Finset

/-- The search on a regular grid with diminishing returns stops only when less than a step is left or every
channel is at its upper bound. -/
theorem concave_spends (G : Grid) (σ B : ℚ) (K : ℕ → ℕ) (base : ℕ → ℚ) (f : ℕ → ℕ → ℚ) (xs)
    (hG : Regular G σ K base f) (hconc : Concave G.cols K f)
    (hfit : ∑ c ∈ range G.cols, base c ≤ B)
    (h : gridSearch G (.fixedBudget B) = .ok xs) :
    ∃ k, IsChoice G k xs ∧ (∀ c < G.cols, k c ≤ K c) ∧
      ∑ c ∈ range G.cols, (base c + k c * σ) ≤ B ∧
      ((∀ c < G.cols, k c = K c) ∨ B < ∑ c ∈ range G.cols, (base c + k c * σ) + σ) := by
  obtain ⟨hr, k, hk, hs, rfl⟩ := gridSearch_ok h
  have hσ := hG.step_pos
  have h0 : FirstRowFinite G := fun c hc => ⟨_, hG.spend_eq c hc 0 (Nat.zero_le _)⟩
  have hex := reach_exchange hG hconc hk
  have hsp : ∀ c < G.cols, G.spend (k c) c = some (base c + k c * σ) :=
    fun c hc => hG.spend_eq c hc _ (hex.1 c hc)
  refine ⟨k, isChoice_of_reach h0 hr hk, hex.1, ?_, ?_⟩
  · rcases reach_budget hk (s0 := base) (fun c hc => by
        simpa using hG.spend_eq c hc 0 (Nat.zero_le _)) hsp with h1 | h1
    · exact h1
    · rw [Finset.sum_congr rfl (fun c hc => h1 c (mem_range.1 hc))]; exact hfit
  · rcases step_none hs with hnone | ⟨m, r, v, hm, hrr, hup, hroi, hbest, hfirst, hexc⟩
    · left
      intro c hc
      by_contra hcon
      have hlt : k c < K c := by have := hex.1 c hc; omega
      have := roiAt_next hG (k := k) hc hlt
      rw [hnone (k c) (by have := hG.K_lt c hc; omega) c hc] at this
      cases this
    · right
      have hrK : r ≤ K m := by
        by_contra hcon
        have := roiAt_beyond hG (k := k) hm (r := r - 1) (by omega) (by omega)
        rw [hroi] at this; cases this
      have hreq : r = k m + 1 := by
        by_contra hcon
        have hnext := roiAt_next hG (k := k) hm (by omega)
        have h1 := hfirst (k m) (by omega) _ hnext
        have hval := roiAt_regular hG (k := k) hm (r := r - 1) (by omega) (by omega)
        rw [show r - 1 + 1 = r by omega, hroi] at hval
        have hg := gain_le hσ hconc hm (show k m ≤ r by omega) hrK
        have hpos : 0 < ((r : ℚ) - k m) * σ := by
          apply mul_pos _ hσ
          have : ((k m : ℕ) : ℚ) < r := by exact_mod_cast hup
          linarith
        have h2 : npRound ((f m r - f m (k m)) / ((r : ℚ) * σ - k m * σ)) 8
            ≤ npRound (slope σ f m (k m)) 8 := by
          apply npRound_mono
          rw [show (r : ℚ) * σ - k m * σ = ((r : ℚ) - k m) * σ by ring, div_le_iff₀ hpos]
          exact hg
        cases hval
        linarith
      have hs' : ∀ c < G.cols, G.spend (move k m r c) c = some (base c + move k m r c * σ) := by
        intro c hc
        refine hG.spend_eq c hc _ ?_
        unfold move; split_ifs with hcm
        · rw [hcm]; exact hrK
        · exact hex.1 c hc
      simp only [exceeds] at hexc
      rw [nsum_some _ _ _ hs'] at hexc
      simp only [Num.lt, decide_eq_true_eq] at hexc
      have hmv := sum_move hm k r
      rw [hreq] at hmv hexc
      have hmv' : (∑ c ∈ range G.cols, ((move k m (k m + 1) c : ℕ) : ℚ))
          = (∑ c ∈ range G.cols, (k c : ℚ)) + 1 := by
        have : ∑ c ∈ range G.cols, move k m (k m + 1) c = (∑ c ∈ range G.cols, k c) + 1 := by
          omega
        exact_mod_cast this
      rw [Finset.sum_add_distrib, ← Finset.sum_mul, hmv'] at hexc
      rw [Finset.sum_add_distrib, ← Finset.sum_mul]
      linarith

/-- **C11 (spent in full).** With diminishing returns in every channel a fixed budget is spent in full: the
optimized total is exactly the total of the non-optimized (rounded) spends. -/
theorem fixed_budget_spent_in_full (n : ℕ) (hist : ℕ → ℚ) (outcome : ℕ → ℕ → ℚ) (budget : Option ℚ)
    (gtol : ℚ) (pct : Option (List ℚ)) (lower upper : Option (List ℚ)) (xs : List (Option ℤ))
    (non : List ℤ) (hn : 0 < n) (hin : NonnegInputs n hist pct)
    (hconc : ∀ c < n, ∀ r, outcome (r + 2) c - outcome (r + 1) c ≤ outcome (r + 1) c - outcome r c)
    (h : budgetOptimize n hist outcome true budget none none gtol pct lower upper = .ok (xs, non)) :
    (xs.map fun x => x.getD 0).sum = non.sum := by
  unfold budgetOptimize at h
  simp only [bind_ok, if_true] at h
  obtain ⟨u, h0, O, h1, req, h2, h3⟩ := h
  have hreq : req = .fixed budget := by
    unfold chooseRequest at h2; simp at h2; exact h2.symm
  subst hreq
  obtain ⟨share, rf, lo, hi, k, G, p1, p2, p3, p4, p5, p6, p7, p8, p9⟩ :=
    pipeline (budget := budget) hn (fun share hs => shareOf_nonneg hin hs) rfl h1 h3
  obtain ⟨hrf, -, hbpos⟩ := getRoundFactor_ok p3
  have hspend : ∀ c < n, 0 ≤ resolveBudget budget (histTotal n hist) * share c :=
    fun c hc => mul_nonneg hbpos.le (p2 c hc)
  have facts := fun c hc => bounds_facts hrf p4 (c := c) hc (hspend c hc)
  have hs := stepSize_pos rf
  have hsq : (0 : ℚ) < stepSize rf := by exact_mod_cast hs
  have hB : non.sum = ∑ c ∈ range n, roundedSpend
      (fun c => resolveBudget budget (histTotal n hist) * share c) rf c := by
    rw [p9, sum_list_range]
  simp only [resolveScenario, sum_list_range] at p8
  obtain ⟨kk, g1, g2, g3, g4⟩ := concave_spends G _ _ _ _ _ xs p7.reg
    (fun c hc r _ => hconc c (by rw [← p6]; exact hc) r)
    (by
      rw [p6]
      have : ∑ c ∈ range n, lo c ≤ ∑ c ∈ range n, roundedSpend
          (fun c => resolveBudget budget (histTotal n hist) * share c) rf c :=
        Finset.sum_le_sum fun c hc => (facts c (mem_range.1 hc)).2.2.2.2.1
      exact_mod_cast this) p8
  rw [p6] at g2 g3 g4
  have hx : ∀ c < n, xs[c]? = some (some (lo c + kk c * stepSize rf)) := by
    intro c hc
    obtain ⟨hr, t, ht, hx⟩ := g1.2 c (by rw [p6]; exact hc)
    rw [p7.reg.spend_eq c (by rw [p6]; exact hc) _ (g2 c hc)] at ht
    injection ht with ht
    rw [hx, ← ht, show ((lo c : ℚ) + (kk c : ℚ) * (stepSize rf : ℤ)) = ((lo c + kk c * stepSize rf : ℤ) : ℚ) by
      push_cast; ring, truncInt_intCast]
  have hxs : xs = (List.range n).map fun c => some (lo c + kk c * stepSize rf) := by
    apply List.ext_getElem?
    intro c
    by_cases hc : c < n
    · rw [hx c hc]; simp [hc]
    · rw [List.getElem?_eq_none (by rw [g1.1, p6]; omega), List.getElem?_eq_none (by simp; omega)]
  have htot : (xs.map fun x => x.getD 0).sum = ∑ c ∈ range n, (lo c + kk c * stepSize rf) := by
    rw [hxs, List.map_map, ← sum_list_range]
    rfl
  rw [htot, hB]
  have g3' : ∑ c ∈ range n, (lo c + kk c * stepSize rf) ≤ ∑ c ∈ range n, roundedSpend
      (fun c => resolveBudget budget (histTotal n hist) * share c) rf c := by exact_mod_cast g3
  apply le_antisymm g3'
  rcases g4 with g4 | g4
  · apply Finset.sum_le_sum
    intro c hc
    have hc := mem_range.1 hc
    rw [g4 c hc]
    have := p5 c hc
    have := (facts c hc).2.2.2.2.2.1
    linarith
  · have g4' : ∑ c ∈ range n, roundedSpend
        (fun c => resolveBudget budget (histTotal n hist) * share c) rf c <
        ∑ c ∈ range n, (lo c + kk c * stepSize rf) + stepSize rf := by exact_mod_cast g4
    have d1 : stepSize rf ∣ ∑ c ∈ range n, roundedSpend
        (fun c => resolveBudget budget (histTotal n hist) * share c) rf c :=
      Finset.dvd_sum fun c hc => (facts c (mem_range.1 hc)).2.2.1
    have d2 : stepSize rf ∣ ∑ c ∈ range n, (lo c + kk c * stepSize rf) :=
      Finset.dvd_sum fun c hc => dvd_add (facts c (mem_range.1 hc)).1 (Dvd.intro_left _ rfl)
    obtain ⟨a, ha⟩ := d1
    obtain ⟨b, hb⟩ := d2
    rw [ha, hb] at g4' ⊢
    have : a < b + 1 := by
      have h' : stepSize rf * a < stepSize rf * (b + 1) := by linarith
      exact lt_of_mul_lt_mul_left h' hs.le
    exact mul_le_mul_of_nonneg_left (by omega) hs.le

example : (∀ c < 3, ∀ r, demoOutcome (r + 2) c - demoOutcome (r + 1) c ≤ demoOutcome (r + 1) c - demoOutcome r c) ∧
    NonnegInputs 3 demoHist none := by
  refine ⟨?_, ⟨?_, by simp⟩⟩
  · intro c _ r
    unfold demoOutcome
    push_cast
    linarith
  · intro c _
    unfold demoHist
    split_ifs <;> norm_num

/-- **C11 (finding).** Without diminishing returns the search can stop at once and leave up to the whole
allowed decrease of the budget unspent: with outcomes that grow faster than spend, the best purchase is to
raise a channel to its upper bound, which exceeds the budget, and the search breaks off instead of trying a
smaller one. -/
theorem budget_left_unspent : budgetOptimize 2 (fun c => if c = 0 then 80 else 20)
      (fun r c => if c = 0 then r * r else r) true none none none (1 / 10000) none none none =
    .ok ([some 56, some 14], [80, 20]) := by
  decide +kernel

end Verif.Optimizer.Props
