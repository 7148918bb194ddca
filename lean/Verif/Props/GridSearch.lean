import Verif.Lemmas.GridSearch2
import Mathlib.Tactic.IntervalCases

/-!
# Budget search: properties C11 - C15

Every theorem is about `gridSearch`, the model of `OptimizationGrid._grid_search`.
-/

namespace Verif.GridSearch.Props

open Verif Verif.GridSearch Verif.GridSearch.Spec Finset

/-- A concrete grid used to show that hypotheses are met: two channels, the second one row
shorter; concave outcomes; spends 0,10,20,30 and 5,15,25. -/
def demo : Grid where
  rows := 4
  cols := 2
  spend := fun r c => if c = 0 then some (r * 10) else if r ≤ 2 then some (5 + r * 10) else none
  out := fun r c => if c = 0 then some (r * 40 - r * r * 5) else if r ≤ 2 then some (r * 30) else none

/-- **C13 (termination).** On every non-empty grid (any shape, any NaN pattern, any scenario) the
search ends, with exactly one amount per channel. -/
theorem search_terminates (G : Grid) (sc : Scenario) (h : 0 < G.rows) :
    ∃ xs, gridSearch G sc = .ok xs ∧ xs.length = G.cols := by
  obtain ⟨st, hst⟩ := loop_terminates (sc := sc) h ((G.rows - 1) * G.cols + 1) _ Reach.start (by omega)
  refine ⟨(List.range G.cols).map fun c => (st.spend c).map truncInt, ?_, by simp⟩
  unfold gridSearch finalState
  rw [if_neg (by omega), initState_eq, hst]
  rfl

example : 0 < demo.rows := by decide

/-- **C12 (spends come from the grid).** Each returned amount is a finite amount of that channel's
own grid column (cast to an integer, as the code does). -/
theorem spend_is_grid_value (G : Grid) (sc : Scenario) (xs) (h0 : FirstRowFinite G)
    (h : gridSearch G sc = .ok xs) : ∃ k, IsChoice G k xs := by
  obtain ⟨hr, k, hk, -, rfl⟩ := gridSearch_ok h
  exact ⟨k, isChoice_of_reach h0 hr hk⟩

/-- **C12 (bounds).** On an integer grid whose columns lie in `[lo c, hi c]`, every returned
amount is exactly a grid amount of its channel, hence inside the bounds. -/
theorem spend_within_bounds (G : Grid) (sc : Scenario) (xs) (lo hi : ℕ → ℚ)
    (h0 : FirstRowFinite G) (hint : IntegerSpends G)
    (hb : ∀ r < G.rows, ∀ c < G.cols, ∀ s, G.spend r c = some s → lo c ≤ s ∧ s ≤ hi c)
    (h : gridSearch G sc = .ok xs) :
    ∀ c < G.cols, ∃ n : ℤ, xs[c]? = some (some n) ∧ lo c ≤ n ∧ (n : ℚ) ≤ hi c ∧
      ∃ r < G.rows, G.spend r c = some (n : ℚ) := by
  obtain ⟨k, hk⟩ := spend_is_grid_value G sc xs h0 h
  intro c hc
  obtain ⟨hr, s, hs, hx⟩ := hk.2 c hc
  obtain ⟨n, rfl⟩ := hint _ hr c hc s hs
  rw [truncInt_intCast] at hx
  exact ⟨n, hx, (hb _ hr c hc _ hs).1, (hb _ hr c hc _ hs).2, k c, hr, hs⟩

theorem demo_firstRowFinite : FirstRowFinite demo := by
  intro c hc
  by_cases h : c = 0 <;> simp [demo, h]

theorem demo_cells (r c : ℕ) (s : ℚ) (hr : r < 4) (hc : c < 2) (h : demo.spend r c = some s) :
    ∃ n : ℕ, s = n ∧ n ≤ 30 := by
  interval_cases c
  · simp [demo] at h
    exact ⟨r * 10, by rw [← h]; push_cast; ring, by omega⟩
  · simp [demo] at h
    exact ⟨5 + r * 10, by rw [← h.2]; push_cast; ring, by omega⟩

example : FirstRowFinite demo ∧ IntegerSpends demo ∧
    (∀ r < demo.rows, ∀ c < demo.cols, ∀ s, demo.spend r c = some s → (0 : ℚ) ≤ s ∧ s ≤ 30) ∧
    gridSearch demo (.fixedBudget 36) = .ok [some 10, some 25] := by
  refine ⟨demo_firstRowFinite, ?_, ?_, by decide +kernel⟩
  · intro r hr c hc s hs
    obtain ⟨n, rfl, -⟩ := demo_cells r c s hr hc hs
    exact ⟨n, by simp⟩
  · intro r hr c hc s hs
    obtain ⟨n, rfl, hn⟩ := demo_cells r c s hr hc hs
    exact ⟨by positivity, by exact_mod_cast hn⟩

/-- **C11 (fixed budget).** If the channels' lower bounds (the first grid row) fit in the budget,
the returned total never exceeds the budget. -/
theorem fixed_budget_respected (G : Grid) (B : ℚ) (xs) (h0 : FirstRowFinite G)
    (hnn : NonnegSpends G)
    (hfit : ∀ s0 : ℕ → ℚ, (∀ c < G.cols, G.spend 0 c = some (s0 c)) → ∑ c ∈ range G.cols, s0 c ≤ B)
    (h : gridSearch G (.fixedBudget B) = .ok xs) : (total xs : ℚ) ≤ B := by
  obtain ⟨hr, k, hk, -, rfl⟩ := gridSearch_ok h
  have hch := isChoice_of_reach h0 hr hk
  choose! s hs using reach_finite h0 hk
  choose! s0 hs0 using h0
  rw [total_choice hch hs]
  have hsum : ∑ c ∈ range G.cols, s c ≤ B := by
    rcases reach_budget hk hs0 hs with h1 | h1
    · exact h1
    · rw [Finset.sum_congr rfl (fun c hc => h1 c (mem_range.1 hc))]
      exact hfit s0 hs0
  push_cast
  refine le_trans (Finset.sum_le_sum fun c hc => ?_) hsum
  have hc := mem_range.1 hc
  exact truncInt_le (hnn _ (reach_row_lt hr hk c) c hc _ (hs c hc))

/-- **C11 (lower bounds already too expensive).** If they do not fit, nothing beyond them is
bought: the result is either inside the budget or exactly the lower bounds. -/
theorem fixed_budget_or_lower_bounds (G : Grid) (B : ℚ) (xs) (h0 : FirstRowFinite G)
    (hnn : NonnegSpends G) (h : gridSearch G (.fixedBudget B) = .ok xs) :
    (total xs : ℚ) ≤ B ∨
      xs = (List.range G.cols).map fun c => (G.spend 0 c).map truncInt := by
  obtain ⟨hr, k, hk, -, rfl⟩ := gridSearch_ok h
  have hch := isChoice_of_reach h0 hr hk
  choose! s hs using reach_finite h0 hk
  choose! s0 hs0 using h0
  rcases reach_budget hk hs0 hs with h1 | h1
  · left
    rw [total_choice hch hs]
    push_cast
    refine le_trans (Finset.sum_le_sum fun c hc => ?_) h1
    have hc := mem_range.1 hc
    exact truncInt_le (hnn _ (reach_row_lt hr hk c) c hc _ (hs c hc))
  · right
    apply List.map_congr_left
    intro c hc
    have hc := List.mem_range.1 hc
    rw [hs c hc, hs0 c hc, h1 c hc]

example : FirstRowFinite demo ∧ NonnegSpends demo ∧
    (∀ s0 : ℕ → ℚ, (∀ c < demo.cols, demo.spend 0 c = some (s0 c)) →
      ∑ c ∈ range demo.cols, s0 c ≤ 36) ∧
    gridSearch demo (.fixedBudget 36) = .ok [some 10, some 25] ∧ total [some 10, some 25] = 35 := by
  refine ⟨demo_firstRowFinite, ?_, ?_, by decide +kernel, by decide⟩
  · intro r hr c hc s hs
    obtain ⟨n, rfl, -⟩ := demo_cells r c s hr hc hs
    positivity
  · intro s0 h
    have a := h 0 (by decide)
    have b := h 1 (by decide)
    simp [demo] at a b
    have : range demo.cols = range 2 := rfl
    rw [this, Finset.sum_range_succ, Finset.sum_range_one, ← a, ← b]
    norm_num

/-- **C13 (why a fixed-budget search stops).** The returned choice cannot be extended by the
search's rule: either no channel has any further (finite-ROI) amount, or the further amount with
the best ROI over all channels and rows would break the budget. -/
theorem fixed_budget_stops (G : Grid) (B : ℚ) (xs) (h0 : FirstRowFinite G)
    (hinc : IncreasingSpends G) (hout : OutcomeWhereSpend G)
    (h : gridSearch G (.fixedBudget B) = .ok xs) :
    ∃ k, IsChoice G k xs ∧
      ((∀ c < G.cols, ∀ r < G.rows, k c < r → G.spend r c = none) ∨
       ∃ m < G.cols, ∃ r < G.rows, k m < r ∧ ∃ s' : ℕ → ℚ,
         (∀ c < G.cols, c ≠ m → G.spend (k c) c = some (s' c)) ∧ G.spend r m = some (s' m) ∧
         B < ∑ c ∈ range G.cols, s' c ∧
         ∀ c < G.cols, ∀ q < G.rows, k c < q → ∀ s s₁ o o₁ t t₁ u u₁,
           G.spend q c = some s₁ → G.spend (k c) c = some s → G.out q c = some o₁ →
           G.out (k c) c = some o → G.spend r m = some t₁ → G.spend (k m) m = some t →
           G.out r m = some u₁ → G.out (k m) m = some u →
           npRound ((o₁ - o) / (s₁ - s)) 8 ≤ npRound ((u₁ - u) / (t₁ - t)) 8) := by
  obtain ⟨hr, k, hk, hs, rfl⟩ := gridSearch_ok h
  have hfin := reach_finite h0 hk
  refine ⟨k, isChoice_of_reach h0 hr hk, ?_⟩
  have hcell : ∀ c < G.cols, ∀ q < G.rows, k c < q → ∀ s s₁ o o₁, G.spend q c = some s₁ →
      G.spend (k c) c = some s → G.out q c = some o₁ → G.out (k c) c = some o →
      roiAt G k (q - 1) c = some (npRound ((o₁ - o) / (s₁ - s)) 8) := by
    intro c hc q hq hkq s s₁ o o₁ h1 h2 h3 h4
    have hlt := hinc c hc _ _ _ _ hkq hq h2 h1
    unfold roiAt
    rw [if_neg (by omega), show q - 1 + 1 = q by omega, h1, h2, h3, h4]
    have hne : s₁ - s ≠ 0 := by linarith
    simp only [roiCell, Num.sub, Num.divWhere, if_neg hne, Option.map_some]
  rcases step_none hs with hnone | ⟨m, r, v, hm, hrr, hup, hroi, hbest, -, hex⟩
  · left
    intro c hc r hrr hkr
    by_contra hcon
    obtain ⟨s₁, h1⟩ := Option.ne_none_iff_exists'.1 hcon
    obtain ⟨s, h2⟩ := hfin c hc
    obtain ⟨o₁, h3⟩ := hout r hrr c hc _ h1
    obtain ⟨o, h4⟩ := hout (k c) (by omega) c hc _ h2
    have := hcell c hc r hrr hkr s s₁ o o₁ h1 h2 h3 h4
    rw [hnone (r - 1) (by omega) c hc] at this
    cases this
  · right
    have hfin' : ∀ c < G.cols, ∃ s, G.spend (move k m r c) c = some s := by
      intro c hc
      unfold move
      split_ifs with hcm
      · subst hcm
        obtain ⟨-, x, y, hx, -⟩ := roiAt_some hroi
        rw [show r - 1 + 1 = r by omega] at hx
        exact ⟨x, hx⟩
      · exact hfin c hc
    choose! s' hs' using hfin'
    refine ⟨m, hm, r, hrr, hup, s', ?_, ?_, ?_, ?_⟩
    · intro c hc hcm
      have := hs' c hc
      simpa [move, hcm] using this
    · have := hs' m hm
      simpa [move] using this
    · simp only [exceeds] at hex
      rw [nsum_some _ _ s' hs'] at hex
      simpa [Num.lt] using hex
    · intro c hc q hq hkq s s₁ o o₁ t t₁ u u₁ h1 h2 h3 h4 h5 h6 h7 h8
      have a := hcell c hc q hq hkq s s₁ o o₁ h1 h2 h3 h4
      have b := hcell m hm r hrr hup t t₁ u u₁ h5 h6 h7 h8
      rw [hroi] at b
      cases b
      exact hbest _ (by omega) c hc _ a

theorem demo_increasing : IncreasingSpends demo := by
  intro c hc r r' s s' hlt hr' hs hs'
  have hc : c < 2 := hc
  have hq : (r : ℚ) < r' := by exact_mod_cast hlt
  interval_cases c <;> simp [demo] at hs hs'
  · rw [← hs, ← hs']; linarith
  · rw [← hs.2, ← hs'.2]; linarith

theorem demo_outcome : OutcomeWhereSpend demo := by
  intro r _ c _ s hs
  by_cases h : c = 0
  · exact ⟨r * 40 - r * r * 5, by simp [demo, h]⟩
  · simp only [demo, h, if_false] at hs ⊢
    split_ifs at hs with h2
    rw [if_pos h2]
    exact ⟨_, rfl⟩

example : FirstRowFinite demo ∧ IncreasingSpends demo ∧ OutcomeWhereSpend demo ∧
    gridSearch demo (.fixedBudget 36) = .ok [some 10, some 25] :=
  ⟨demo_firstRowFinite, demo_increasing, demo_outcome, by decide +kernel⟩

/-- **C14 (optimality under diminishing returns).** On a regular grid with concave outcome columns
the returned choice `k` fits the budget, and

* no other choice `l` of grid amounts with the same total spend has a larger total outcome, and
* if outcomes are non-decreasing, no other choice with a total spend inside the budget has,

up to `5e-9` per unit of spend moved (the code compares ROIs rounded to 8 decimals). -/
theorem greedy_optimal (G : Grid) (σ B : ℚ) (K : ℕ → ℕ) (base : ℕ → ℚ) (f : ℕ → ℕ → ℚ) (xs)
    (hG : Regular G σ K base f) (hconc : Concave G.cols K f)
    (hfit : ∑ c ∈ range G.cols, base c ≤ B)
    (h : gridSearch G (.fixedBudget B) = .ok xs) :
    ∃ k, IsChoice G k xs ∧ (∀ c < G.cols, k c ≤ K c) ∧
      ∑ c ∈ range G.cols, (base c + k c * σ) ≤ B ∧
      ∀ l : ℕ → ℕ, (∀ c < G.cols, l c ≤ K c) →
        (∑ c ∈ range G.cols, l c = ∑ c ∈ range G.cols, k c ∨
          (Nondecreasing G.cols K f ∧ ∑ c ∈ range G.cols, (base c + l c * σ) ≤ B)) →
        ∑ c ∈ range G.cols, f c (l c) ≤ ∑ c ∈ range G.cols, f c (k c) +
          5 / 10 ^ 9 * ∑ c ∈ range G.cols, |(base c + l c * σ) - (base c + k c * σ)| := by
  obtain ⟨hr, k, hk, hs, rfl⟩ := gridSearch_ok h
  have hσ := hG.step_pos
  have h0 : FirstRowFinite G := fun c hc => ⟨_, hG.spend_eq c hc 0 (Nat.zero_le _)⟩
  have hex := reach_exchange hG hconc hk
  have hsp : ∀ c < G.cols, G.spend (k c) c = some (base c + k c * σ) :=
    fun c hc => hG.spend_eq c hc _ (hex.1 c hc)
  refine ⟨k, isChoice_of_reach h0 hr hk, hex.1, ?_, ?_⟩
  · rcases reach_budget hk (s0 := base) (fun c hc => by
        simpa using hG.spend_eq c hc 0 (Nat.zero_le _)) hsp with h1 | h1
    · exact h1
    · rw [Finset.sum_congr rfl (fun c hc => h1 c (mem_range.1 hc))]; exact hfit
  · intro l hl hcomp
    obtain ⟨lam, p1, p2, p3⟩ := exists_price hex.1 hex
    have hgain : ∀ c ∈ range G.cols, f c (l c) ≤ f c (k c) +
        (lam * (((l c : ℚ) - k c) * σ) + 5 / 10 ^ 9 * |(base c + l c * σ) - (base c + k c * σ)|) := by
      intro c hc
      have hc := mem_range.1 hc
      have := gain_vs_price hG hconc (δ := 5 / 10 ^ 9) (by norm_num) p1 p2 hc (hex.1 c hc) (hl c hc)
      have e : |(base c + l c * σ) - (base c + k c * σ)| = |(l c : ℚ) - k c| * σ := by
        rw [show (base c + l c * σ) - (base c + k c * σ) = ((l c : ℚ) - k c) * σ by ring, abs_mul,
          abs_of_pos hσ]
      rw [e]; linarith
    have hsum := Finset.sum_le_sum hgain
    rw [Finset.sum_add_distrib, Finset.sum_add_distrib, ← Finset.mul_sum, ← Finset.mul_sum,
      ← Finset.sum_mul, Finset.sum_sub_distrib] at hsum
    have hprice : lam * ((∑ c ∈ range G.cols, (l c : ℚ) - ∑ c ∈ range G.cols, (k c : ℚ)) * σ) ≤ 0 := by
      rcases hcomp with heq | ⟨hnd, hB⟩
      · have : (∑ c ∈ range G.cols, (l c : ℚ)) = ∑ c ∈ range G.cols, (k c : ℚ) := by exact_mod_cast heq
        rw [this]; simp
      · have hlam : 0 ≤ lam := p3 (fun c hc j hj => by
          unfold slope
          have := hnd c hc j hj
          apply div_nonneg _ hσ.le
          linarith)
        have hle : (∑ c ∈ range G.cols, (l c : ℚ)) ≤ ∑ c ∈ range G.cols, (k c : ℚ) := by
          rcases step_none hs with hnone | ⟨m, r, v, hm, hrr, hup, hroi, hbest, hfirst, hexc⟩
          · apply Finset.sum_le_sum
            intro c hc
            have hc := mem_range.1 hc
            have : l c ≤ k c := by
              by_contra hcon
              have hlt : k c < K c := by have := hl c hc; omega
              have := roiAt_next hG (k := k) hc hlt
              rw [hnone (k c) (by have := hG.K_lt c hc; omega) c hc] at this
              cases this
            exact_mod_cast this
          · -- the rejected purchase costs exactly one step
            have hrK : r ≤ K m := by
              by_contra hcon
              have := roiAt_beyond hG (k := k) hm (r := r - 1) (by omega) (by omega)
              rw [hroi] at this; cases this
            have hreq : r = k m + 1 := by
              by_contra hcon
              have hnext := roiAt_next hG (k := k) hm (by omega)
              have h1 := hfirst (k m) (by omega) _ hnext
              have hval := roiAt_regular hG (k := k) hm (r := r - 1) (by omega) (by omega)
              rw [show r - 1 + 1 = r by omega, hroi] at hval
              have hg := gain_le hσ hconc hm (show k m ≤ r by omega) hrK
              have hpos : 0 < ((r : ℚ) - k m) * σ := by
                apply mul_pos _ hσ
                have : ((k m : ℕ) : ℚ) < r := by exact_mod_cast hup
                linarith
              have h2 : npRound ((f m r - f m (k m)) / ((r : ℚ) * σ - k m * σ)) 8
                  ≤ npRound (slope σ f m (k m)) 8 := by
                apply npRound_mono
                rw [show (r : ℚ) * σ - k m * σ = ((r : ℚ) - k m) * σ by ring, div_le_iff₀ hpos]
                exact hg
              cases hval
              linarith
            have hs' : ∀ c < G.cols, G.spend (move k m r c) c = some (base c + move k m r c * σ) := by
              intro c hc
              refine hG.spend_eq c hc _ ?_
              unfold move; split_ifs with hcm
              · rw [hcm]; exact hrK
              · exact hex.1 c hc
            simp only [exceeds] at hexc
            rw [nsum_some _ _ _ hs'] at hexc
            simp only [Num.lt, decide_eq_true_eq] at hexc
            have hmv := sum_move hm k r
            rw [hreq] at hmv hexc
            have hmv' : (∑ c ∈ range G.cols, ((move k m (k m + 1) c : ℕ) : ℚ))
                = (∑ c ∈ range G.cols, (k c : ℚ)) + 1 := by
              have : ∑ c ∈ range G.cols, move k m (k m + 1) c = (∑ c ∈ range G.cols, k c) + 1 := by
                omega
              exact_mod_cast this
            rw [Finset.sum_add_distrib, ← Finset.sum_mul, hmv'] at hexc
            rw [Finset.sum_add_distrib, ← Finset.sum_mul] at hB
            have hlt : (∑ c ∈ range G.cols, (l c : ℚ)) * σ < ((∑ c ∈ range G.cols, (k c : ℚ)) + 1) * σ := by
              linarith
            have hlt' := lt_of_mul_lt_mul_right hlt hσ.le
            have : ∑ c ∈ range G.cols, l c < (∑ c ∈ range G.cols, k c) + 1 := by exact_mod_cast hlt'
            have : ∑ c ∈ range G.cols, l c ≤ ∑ c ∈ range G.cols, k c := by omega
            exact_mod_cast this
        apply mul_nonpos_of_nonneg_of_nonpos hlam
        apply mul_nonpos_of_nonpos_of_nonneg _ hσ.le
        linarith
    linarith

theorem demo_regular : Regular demo 10 (fun c => if c = 0 then 3 else 2)
    (fun c => if c = 0 then 0 else 5)
    (fun c r => if c = 0 then (r : ℚ) * 40 - r * r * 5 else r * 30) where
  step_pos := by norm_num
  rows_pos := by decide
  K_lt := by decide
  spend_eq := by
    intro c hc r hr
    by_cases h : c = 0
    · simp [demo, h]
    · simp [demo, h] at hr ⊢; omega
  out_eq := by
    intro c hc r hr
    by_cases h : c = 0
    · simp [demo, h]
    · simp [demo, h] at hr ⊢; omega
  spend_nan := by
    intro c hc r hr hr2
    have : r < 4 := hr2
    by_cases h : c = 0
    · simp [h] at hr; omega
    · simp [demo, h] at hr ⊢; omega

example : ∃ K base f, Regular demo 10 K base f ∧ Concave demo.cols K f ∧
    Nondecreasing demo.cols K f ∧ ∑ c ∈ range demo.cols, base c ≤ 36 ∧
    gridSearch demo (.fixedBudget 36) = .ok [some 10, some 25] := by
  refine ⟨_, _, _, demo_regular, ?_, ?_, ?_, by decide +kernel⟩
  · intro c hc r hr
    by_cases h : c = 0
    · simp [h]; nlinarith
    · simp [h]; linarith
  · intro c hc r hr
    by_cases h : c = 0
    · simp [h] at hr ⊢
      have : (r : ℚ) ≤ 2 := by exact_mod_cast hr
      nlinarith
    · simp [h]
  · have : range demo.cols = range 2 := rfl
    rw [this, Finset.sum_range_succ, Finset.sum_range_one]
    norm_num

/-- **C15 (target mROI).** In a target-mROI search every channel's incremental outcome gained over
its lower bound is at least the target times the additional spend (up to the 8-decimal rounding of
the ROI comparison). -/
theorem target_mroi_met (G : Grid) (T : ℚ) (xs) (h0 : FirstRowFinite G)
    (hinc : IncreasingSpends G) (hout : OutcomeWhereSpend G)
    (h : gridSearch G (.targetMroi T) = .ok xs) :
    ∃ k, IsChoice G k xs ∧ ∀ c < G.cols, ∀ s s0 o o0,
      G.spend (k c) c = some s → G.spend 0 c = some s0 →
      G.out (k c) c = some o → G.out 0 c = some o0 →
      (T - 5 / 10 ^ 9) * (s - s0) ≤ o - o0 := by
  obtain ⟨hr, k, hk, -, rfl⟩ := gridSearch_ok h
  refine ⟨k, isChoice_of_reach h0 hr hk, ?_⟩
  intro c hc s s0 o o0 a b d e
  have := reach_mroi hr hinc hout hk c hc s s0 o o0 a b d e
  norm_num at this ⊢
  exact this

example : FirstRowFinite demo ∧ IncreasingSpends demo ∧ OutcomeWhereSpend demo ∧
    gridSearch demo (.targetMroi 2) = .ok [some 20, some 25] :=
  ⟨demo_firstRowFinite, demo_increasing, demo_outcome, by decide +kernel⟩

/-- **C15 (target ROI).** When a target-ROI search has bought anything, the returned choice meets
the target total ROI, or the ROI of the last amount bought was at least the total ROI it led to. -/
theorem target_roi_last_purchase (G : Grid) (T : ℚ) (xs) (h0 : FirstRowFinite G)
    (hout : OutcomeWhereSpend G) (h : gridSearch G (.targetRoi T) = .ok xs) :
    ∃ k, IsChoice G k xs ∧
      ((∀ c < G.cols, k c = 0) ∨
        ∀ s o : ℕ → ℚ, (∀ c < G.cols, G.spend (k c) c = some (s c)) →
          (∀ c < G.cols, G.out (k c) c = some (o c)) →
          0 ≠ ∑ c ∈ range G.cols, s c →
          T ≤ (∑ c ∈ range G.cols, o c) / (∑ c ∈ range G.cols, s c) ∨
          ∃ m < G.cols, ∃ r < k m, ∃ x y, G.spend r m = some x ∧ G.out r m = some y ∧
            (∑ c ∈ range G.cols, o c) / (∑ c ∈ range G.cols, s c) ≤
              (if s m - x = 0 then 0 else npRound ((o m - y) / (s m - x)) 8)) := by
  obtain ⟨hr, k, hk, -, rfl⟩ := gridSearch_ok h
  refine ⟨k, isChoice_of_reach h0 hr hk, ?_⟩
  cases hk with
  | start => left; intro c _; rfl
  | @buy k m r v hk hb =>
    right
    intro s o hs ho hne
    have hok := hb.ok
    simp only [exceeds] at hok
    rw [nsum_some _ _ s hs, nsum_some _ _ o ho] at hok
    simp only [Num.div, if_neg hne.symm, Num.lt, Bool.and_eq_false_iff,
      decide_eq_false_iff_not, not_lt] at hok
    rcases hok with h1 | h1
    · left; exact h1
    · right
      have hup := hb.up
      have hsm := hs m hb.hm
      have hom := ho m hb.hm
      obtain ⟨x, hx⟩ := reach_finite h0 hk m hb.hm
      obtain ⟨y, hy⟩ := hout (k m) (reach_row_lt hr hk m) m hb.hm x hx
      refine ⟨m, hb.hm, k m, by simpa [move] using hup, x, y, hx, hy, ?_⟩
      refine le_trans h1 (le_of_eq ?_)
      have hroi := hb.roi
      simp only [move, if_true] at hsm hom
      unfold roiAt at hroi
      rw [if_neg (by omega), show r - 1 + 1 = r by omega, hsm, hom, hx, hy] at hroi
      simp only [roiCell, Num.sub, Num.divWhere] at hroi
      split_ifs at hroi ⊢
      · simp [npRound_zero] at hroi; exact hroi.symm
      · simp at hroi; exact hroi.symm

example : FirstRowFinite demo ∧ OutcomeWhereSpend demo ∧
    gridSearch demo (.targetRoi 2) = .ok [some 30, some 25] :=
  ⟨demo_firstRowFinite, demo_outcome, by decide +kernel⟩

/-- A single channel with a constant ROI of 1. -/
def linearChannel : Grid where
  rows := 4
  cols := 1
  spend := fun r _ => some (r * 10)
  out := fun r _ => some (r * 10)

/-- **C15 (negation of the stronger reading).** A target-ROI search can return an allocation below
the target although the empty allocation was available: one channel with constant ROI 1 and a
target ROI of 2 is bought up to its upper bound, because the step ROI never falls *below* the
total ROI. -/
theorem target_roi_not_guaranteed :
    ∃ (G : Grid) (T : ℚ) (n : ℤ) (o : ℚ), gridSearch G (.targetRoi T) = .ok [some n] ∧
      (∃ r < G.rows, G.spend r 0 = some (n : ℚ) ∧ G.out r 0 = some o) ∧ 0 < n ∧ o / n < T ∧
      G.spend 0 0 = some 0 := by
  refine ⟨linearChannel, 2, 30, 30, by decide +kernel, ⟨3, by decide, ?_, ?_⟩, by norm_num,
    by norm_num, ?_⟩
  · simp [linearChannel]; norm_num
  · simp [linearChannel]; norm_num
  · simp [linearChannel]

end Verif.GridSearch.Props
