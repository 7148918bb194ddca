import Verif.Spec.Nested
import Verif.Lemmas.Nested
import Verif.Props.FullBudget

/-!
# How the best allocation changes with the budget and with the target
-/

namespace Verif.Nested.Props

open Verif Verif.GridSearch Verif.GridSearch.Spec Verif.Optimizer Verif.Optimizer.Props Verif.Nested.Spec Finset

theorem atMost_of_rows {G : Grid} (h0 : FirstRowFinite G) (hinc : IncreasingSpends G) (hr : 0 < G.rows) {i j : ℕ}
    {k k' : ℕ → ℕ} (hij : i ≤ j) (h : Path G i k) (h' : Path G j k') :
    AtMost ((List.range G.cols).map fun c => (G.spend (k c) c).map truncInt)
      ((List.range G.cols).map fun c => (G.spend (k' c) c).map truncInt) := by
  unfold AtMost
  rw [List.forall₂_map_left_iff, List.forall₂_map_right_iff, List.forall₂_same]
  intro c hc
  rw [List.mem_range] at hc
  obtain ⟨s, hs⟩ := path_finite h0 h c hc
  obtain ⟨s', hs'⟩ := path_finite h0 h' c hc
  refine ⟨truncInt s, truncInt s', by rw [hs]; rfl, by rw [hs']; rfl, truncInt_mono ?_⟩
  rcases (path_mono hij h h' c).lt_or_eq with hlt | heq
  · exact (hinc c hc _ _ s s' hlt (path_row_lt hr h' c) hs hs').le
  · rw [heq, hs'] at hs; exact (Option.some.inj hs).ge

/-- If one scenario stops wherever the other does, its allocation is at most that of the other. -/
theorem atMost_of_stops {G : Grid} {sc sc' : Scenario} (h0 : FirstRowFinite G) (hinc : IncreasingSpends G)
    {xs xs' : List (Option ℤ)} (h : gridSearch G sc = .ok xs) (h' : gridSearch G sc' = .ok xs')
    (hst : ∀ k, step G sc' (stateOf G k) = none → step G sc (stateOf G k) = none) : AtMost xs xs' := by
  obtain ⟨hr, i, k, h1, rfl, h3, h4⟩ := search_path h
  obtain ⟨-, i', k', h1', rfl, h3', h4'⟩ := search_path h'
  refine atMost_of_rows h0 hinc hr ?_ h1 h1'
  by_contra hlt
  push Not at hlt
  exact h4 i' hlt k' h1' (hst k' h3')

theorem stops_of_exceeds {G : Grid} {sc sc' : Scenario}
    (he : ∀ spend out v, exceeds G.cols spend out v sc' = true → exceeds G.cols spend out v sc = true) (k : ℕ → ℕ)
    (h : step G sc' (stateOf G k) = none) : step G sc (stateOf G k) = none := by
  rw [step_eq] at h ⊢
  cases hn : nanargmax (G.rows - 1) G.cols (roiAt G k) with
  | none => rfl
  | some a =>
    obtain ⟨⟨row, m⟩, v⟩ := a
    rw [hn] at h
    simp only at h ⊢
    split_ifs at h with hx
    rw [if_pos (he _ _ _ hx)]

/-- Any two requests on the same grid, of whatever kind, give allocations of which one is at most the other in every
channel. -/
theorem nested (G : Grid) (h0 : FirstRowFinite G) (hinc : IncreasingSpends G) (sc sc' : Scenario) (xs xs')
    (h : gridSearch G sc = .ok xs) (h' : gridSearch G sc' = .ok xs') : AtMost xs xs' ∨ AtMost xs' xs := by
  obtain ⟨hr, i, k, h1, rfl, h3, h4⟩ := search_path h
  obtain ⟨-, i', k', h1', rfl, h3', h4'⟩ := search_path h'
  rcases le_total i i' with hi | hi
  · exact Or.inl (atMost_of_rows h0 hinc hr hi h1 h1')
  · exact Or.inr (atMost_of_rows h0 hinc hr hi h1' h1)

/-- A larger budget on the same grid takes nothing from any channel. -/
theorem larger_budget (G : Grid) (h0 : FirstRowFinite G) (hinc : IncreasingSpends G) (B B' : ℚ) (hB : B ≤ B') (xs xs')
    (h : gridSearch G (.fixedBudget B) = .ok xs) (h' : gridSearch G (.fixedBudget B') = .ok xs') : AtMost xs xs' := by
  refine atMost_of_stops h0 hinc h h' (stops_of_exceeds ?_)
  intro spend out v he
  simp only [exceeds] at he ⊢
  cases hn : nsum G.cols spend with
  | none => rw [hn] at he; simp [Num.lt] at he
  | some s =>
    rw [hn] at he
    simp only [Num.lt, decide_eq_true_eq] at he ⊢
    exact lt_of_le_of_lt hB he

/-- A lower target for the marginal ROI takes nothing from any channel. -/
theorem lower_target_mroi (G : Grid) (h0 : FirstRowFinite G) (hinc : IncreasingSpends G) (T T' : ℚ) (hT : T' ≤ T) (xs xs')
    (h : gridSearch G (.targetMroi T) = .ok xs) (h' : gridSearch G (.targetMroi T') = .ok xs') : AtMost xs xs' := by
  refine atMost_of_stops h0 hinc h h' (stops_of_exceeds ?_)
  intro spend out v he
  simp only [exceeds, decide_eq_true_eq] at he ⊢
  exact lt_of_lt_of_le he hT

/-- A lower target for the ROI takes nothing from any channel. -/
theorem lower_target_roi (G : Grid) (h0 : FirstRowFinite G) (hinc : IncreasingSpends G) (T T' : ℚ) (hT : T' ≤ T) (xs xs')
    (h : gridSearch G (.targetRoi T) = .ok xs) (h' : gridSearch G (.targetRoi T') = .ok xs') : AtMost xs xs' := by
  refine atMost_of_stops h0 hinc h h' (stops_of_exceeds ?_)
  intro spend out v he
  simp only [exceeds] at he ⊢
  cases hn : Num.div (nsum G.cols out) (nsum G.cols spend) with
  | none => rw [hn] at he; simp [Num.lt] at he
  | some s =>
    rw [hn] at he
    simp only [Num.lt, Bool.and_eq_true, decide_eq_true_eq] at he ⊢
    exact ⟨lt_of_lt_of_le he.1 hT, he.2⟩

theorem sum_lt_move {G : Grid} (hinc : IncreasingSpends G) {k : ℕ → ℕ} {row m : ℕ} {v : ℚ}
    (hn : nanargmax (G.rows - 1) G.cols (roiAt G k) = some ((row, m), v)) {s s' : ℕ → ℚ}
    (hs : ∀ c < G.cols, G.spend (k c) c = some (s c))
    (hs' : ∀ c < G.cols, G.spend (move k m (row + 1) c) c = some (s' c)) :
    ∑ c ∈ range G.cols, s c < ∑ c ∈ range G.cols, s' c := by
  obtain ⟨hm, hrow, hup, -⟩ := path_step hn
  refine Finset.sum_lt_sum ?_ ⟨m, mem_range.2 hm, ?_⟩
  · intro c hc
    rw [mem_range] at hc
    by_cases hcm : c = m
    · subst hcm
      have := hs' c hc
      simp only [move, if_true] at this
      exact (hinc c hc _ _ _ _ hup hrow (hs c hc) this).le
    · have := hs' c hc
      simp only [move, if_neg hcm] at this
      rw [hs c hc] at this
      exact (Option.some.inj this).le
  · have := hs' m hm
    simp only [move, if_true] at this
    exact hinc m hm _ _ _ _ hup hrow (hs m hm) this

theorem sum_path_mono {G : Grid} (h0 : FirstRowFinite G) (hinc : IncreasingSpends G) (hr : 0 < G.rows) {i j : ℕ}
    {k k' : ℕ → ℕ} (hij : i ≤ j) (h : Path G i k) (h' : Path G j k') {s s' : ℕ → ℚ}
    (hs : ∀ c < G.cols, G.spend (k c) c = some (s c)) (hs' : ∀ c < G.cols, G.spend (k' c) c = some (s' c)) :
    ∑ c ∈ range G.cols, s c ≤ ∑ c ∈ range G.cols, s' c := by
  refine Finset.sum_le_sum ?_
  intro c hc
  rw [mem_range] at hc
  rcases (path_mono hij h h' c).lt_or_eq with hlt | heq
  · exact (hinc c hc _ _ _ _ hlt (path_row_lt hr h' c) (hs c hc) (hs' c hc)).le
  · have := hs c hc
    rw [heq, hs' c hc] at this
    exact (Option.some.inj this).ge

/-- Whatever was asked for, a fixed budget of the amount that was spent gives the same allocation. -/
theorem same_as_fixed_budget (G : Grid) (h0 : FirstRowFinite G) (hinc : IncreasingSpends G) (hint : IntegerSpends G)
    (sc : Scenario) (xs) (h : gridSearch G sc = .ok xs) : gridSearch G (.fixedBudget (total xs)) = .ok xs := by
  obtain ⟨hr, i, k, h1, hxs, h3, h4⟩ := search_path h
  obtain ⟨ys, hys, -⟩ := GridSearch.Props.search_terminates G (.fixedBudget (total xs)) hr
  rw [hys]
  obtain ⟨-, i', k', h1', hys', h3', h4'⟩ := search_path hys
  have hfin := path_finite h0 h1
  choose! s hs using hfin
  have hfin' := path_finite h0 h1'
  choose! s' hs' using hfin'
  -- the total of the allocation is the total of the spends in the grid
  have htot : ((total xs : ℤ) : ℚ) = ∑ c ∈ range G.cols, s c := by
    rw [hxs, total_map]
    push_cast
    refine Finset.sum_congr rfl ?_
    intro c hc
    rw [mem_range] at hc
    rw [hs c hc]
    obtain ⟨z, hz⟩ := hint _ (path_row_lt hr h1 c) c hc _ (hs c hc)
    simp only [Option.map_some, Option.getD_some]
    rw [hz, truncInt_intCast]
  have hle : i ≤ i' := by
    by_contra hlt
    push Not at hlt
    -- the fixed budget search stopped before, so the next purchase exceeded the total
    have hgo := h4 i' hlt k' h1'
    rw [step_eq] at h3' hgo
    cases hn : nanargmax (G.rows - 1) G.cols (roiAt G k') with
    | none => rw [hn] at hgo; exact hgo rfl
    | some a =>
      obtain ⟨⟨row, m⟩, v⟩ := a
      rw [hn] at h3'
      simp only at h3'
      split_ifs at h3' with hex
      have hp := Path.buy h1' hn
      have hfin2 := path_finite h0 hp
      choose! t ht using hfin2
      simp only [exceeds] at hex
      rw [nsum_some _ _ t ht, htot] at hex
      simp only [Num.lt, decide_eq_true_eq] at hex
      have := sum_path_mono h0 hinc hr (Nat.succ_le_of_lt hlt) hp h1 ht hs
      linarith
  have hge : i' ≤ i := by
    by_contra hlt
    push Not at hlt
    have hgo := h4' i hlt k h1
    rw [step_eq] at hgo
    cases hn : nanargmax (G.rows - 1) G.cols (roiAt G k) with
    | none => rw [hn] at hgo; exact hgo rfl
    | some a =>
      obtain ⟨⟨row, m⟩, v⟩ := a
      rw [hn] at hgo
      simp only at hgo
      have hp := Path.buy h1 hn
      have hfin2 := path_finite h0 hp
      choose! t ht using hfin2
      apply hgo
      rw [if_pos]
      simp only [exceeds]
      rw [nsum_some _ _ t ht, htot]
      simp only [Num.lt, decide_eq_true_eq]
      exact sum_lt_move hinc hn hs ht
  have : i = i' := le_antisymm hle hge
  subst this
  rw [hys', hxs, path_unique h1 h1']

/-- With diminishing returns a target for the marginal ROI gives the most outcome, each unit of spend counted at the
target, among all allocations on the grid (up to the 8-decimal rounding of the ROI comparison); with a target of 1, the
largest profit. -/
theorem target_mroi_optimal (G : Grid) (σ T : ℚ) (K : ℕ → ℕ) (base : ℕ → ℚ) (f : ℕ → ℕ → ℚ) (xs)
    (hG : Regular G σ K base f) (hconc : Concave G.cols K f) (h : gridSearch G (.targetMroi T) = .ok xs) :
    ∃ k, IsChoice G k xs ∧ (∀ c < G.cols, k c ≤ K c) ∧ ∀ l : ℕ → ℕ, (∀ c < G.cols, l c ≤ K c) →
      ∑ c ∈ range G.cols, (f c (l c) - T * (base c + l c * σ)) ≤
        ∑ c ∈ range G.cols, (f c (k c) - T * (base c + k c * σ)) +
          5 / 10 ^ 9 * ∑ c ∈ range G.cols, |(base c + l c * σ) - (base c + k c * σ)| := by
  obtain ⟨hr, k, hk, hs, rfl⟩ := gridSearch_ok h
  have hσ := hG.step_pos
  have h0 : FirstRowFinite G := fun c hc => ⟨_, hG.spend_eq c hc 0 (Nat.zero_le _)⟩
  have hex := reach_exchange hG hconc hk
  refine ⟨k, isChoice_of_reach h0 hr hk, hex.1, ?_⟩
  have p1 : ∀ j < G.cols, k j < K j → npRound (slope σ f j (k j)) 8 ≤ T := by
    intro j hj hlt
    have hnext := roiAt_next hG (k := k) hj hlt
    have hrow : k j < G.rows - 1 := by have := hG.K_lt j hj; omega
    rcases step_none hs with hnone | ⟨m, r, v, hm, hrr, hup, hroi, hbest, hfirst, hexc⟩
    · rw [hnone (k j) hrow j hj] at hnext; cases hnext
    · simp only [exceeds, decide_eq_true_eq] at hexc
      exact (lt_of_le_of_lt (hbest (k j) hrow j hj _ hnext) hexc).le
  have p2 := target_price hG hconc hk
  intro l hl
  rw [Finset.mul_sum, ← Finset.sum_add_distrib]
  refine Finset.sum_le_sum ?_
  intro c hc
  rw [mem_range] at hc
  have := gain_vs_price hG hconc (δ := 5 / 10 ^ 9) (by norm_num) p1 p2 hc (hex.1 c hc) (hl c hc)
  have e : |(base c + l c * σ) - (base c + k c * σ)| = |(l c : ℚ) - k c| * σ := by
    rw [show (base c + l c * σ) - (base c + k c * σ) = ((l c : ℚ) - k c) * σ by ring, abs_mul, abs_of_pos hσ]
  rw [e]
  linarith

/-! ### The whole optimizer -/

theorem regular_first {G : Grid} {σ : ℚ} {K : ℕ → ℕ} {base : ℕ → ℚ} {f : ℕ → ℕ → ℚ} (hG : Regular G σ K base f) :
    FirstRowFinite G ∧ IncreasingSpends G := by
  refine ⟨fun c hc => ⟨_, hG.spend_eq c hc 0 (Nat.zero_le _)⟩, ?_⟩
  intro c hc r r' s s' hlt hr' hs hs'
  have hσ := hG.step_pos
  have hK : r' ≤ K c := by
    by_contra hcon
    rw [hG.spend_nan c hc r' (by omega) hr'] at hs'
    cases hs'
  rw [hG.spend_eq c hc r (by omega)] at hs
  rw [hG.spend_eq c hc r' hK] at hs'
  cases hs; cases hs'
  have : (r : ℚ) < r' := by exact_mod_cast hlt
  have := mul_lt_mul_of_pos_right this hσ
  linarith

/-- Two flexible requests with the same data and settings are two searches on the same grid. -/
theorem flexible_same_grid {n : ℕ} {hist : ℕ → ℚ} {outcome : ℕ → ℕ → ℚ} {roi mroi roi' mroi' : Option ℚ} {gtol : ℚ}
    {pct lower upper : Option (List ℚ)} {xs xs' : List (Option ℤ)} {non non' : List ℤ} {req req' : Request} (hn : 0 < n)
    (hin : NonnegInputs n hist pct) (hq : chooseRequest false none roi mroi = .ok req)
    (hq' : chooseRequest false none roi' mroi' = .ok req') (hb : req.budget = none) (hb' : req'.budget = none)
    (h : budgetOptimize n hist outcome false none roi mroi gtol pct lower upper = .ok (xs, non))
    (h' : budgetOptimize n hist outcome false none roi' mroi' gtol pct lower upper = .ok (xs', non')) :
    non = non' ∧ ∃ G rounded, FirstRowFinite G ∧ IncreasingSpends G ∧
      gridSearch G (resolveScenario n rounded req) = .ok xs ∧ gridSearch G (resolveScenario n rounded req') = .ok xs' := by
  unfold budgetOptimize at h h'
  simp only [bind_ok, hq, hq'] at h h'
  obtain ⟨u, -, O, h1, r, hr, h3⟩ := h
  obtain ⟨u', -, O', h1', r', hr', h3'⟩ := h'
  cases hr; cases hr'
  rw [h1] at h1'
  cases h1'
  obtain ⟨share, rf, lo, hi, rows, cells, p1, p2, p3, p4, rfl⟩ := createOptimizationGrid_ok h1
  obtain ⟨share1, lo1, hi1, rf1, G1, q1, q2, q3, q4, q5, q6⟩ := optimize_ok h3
  obtain ⟨share2, lo2, hi2, rf2, G2, r1, r2, r3, r4, r5, r6⟩ := optimize_ok h3'
  simp only at q1 q2 q3 q4 q5 q6 r1 r2 r3 r4 r5 r6
  rw [p1] at q1 r1
  cases q1; cases r1
  rw [hb] at q2 q5 q6
  rw [hb'] at r2 r5 r6
  simp only [Option.getD_some] at q2 r2
  rw [p3] at q2 r2
  cases q2; cases r2
  obtain ⟨hrf, -, hbud⟩ := getRoundFactor_ok p2
  have hsh := shareOf_nonneg hin p1
  obtain ⟨k, hk, hreg⟩ := created_regular outcome hn hrf (fun c hc => mul_nonneg hbud.le (hsh c hc)) p3 p4
  obtain ⟨G'', t1, t2, t3⟩ := trimGrids_regular (stepSize_pos rf) hreg (lo := lo) (hi := hi)
    (a := fun _ => 0) (b := k) (fun c hc => by simp)
    (fun c hc => by have := hk c hc; linarith) (fun c hc => Nat.zero_le _) (fun c hc => le_rfl)
  rw [t1] at q4 r4
  injection q4 with q4
  injection r4 with r4
  subst q4 r4
  have hf := regular_first t3.reg
  exact ⟨by rw [q6, r6], _, _, hf.1, hf.2, q5, r5⟩

/-- With the same data and settings, asking for a lower target takes nothing from any channel. -/
theorem lower_target (n : ℕ) (hist : ℕ → ℚ) (outcome : ℕ → ℕ → ℚ) (T T' gtol : ℚ) (pct lower upper : Option (List ℚ))
    (xs xs' : List (Option ℤ)) (non non' : List ℤ) (hn : 0 < n) (hin : NonnegInputs n hist pct) (hT : T' ≤ T)
    (h : (budgetOptimize n hist outcome false none none (some T) gtol pct lower upper = .ok (xs, non) ∧
        budgetOptimize n hist outcome false none none (some T') gtol pct lower upper = .ok (xs', non')) ∨
      (budgetOptimize n hist outcome false none (some T) none gtol pct lower upper = .ok (xs, non) ∧
        budgetOptimize n hist outcome false none (some T') none gtol pct lower upper = .ok (xs', non'))) :
    AtMost xs xs' ∧ non = non' := by
  rcases h with ⟨h, h'⟩ | ⟨h, h'⟩
  · obtain ⟨h1, G, rounded, h0, hinc, g, g'⟩ := flexible_same_grid (req := .mroi T) (req' := .mroi T') hn hin rfl rfl rfl
      rfl h h'
    exact ⟨lower_target_mroi G h0 hinc T T' hT xs xs' g g', h1⟩
  · have key : ∀ {T xs non}, budgetOptimize n hist outcome false none (some T) none gtol pct lower upper = .ok (xs, non) →
        chooseRequest false none (some T) none = .ok (.roi T) := by
      intro T xs non h
      unfold budgetOptimize at h
      simp only [bind_ok] at h
      obtain ⟨-, -, -, -, r, hr, -⟩ := h
      have hr' := hr
      unfold chooseRequest at hr ⊢
      simp only [Bool.false_eq_true, if_false] at hr ⊢
      split_ifs at hr ⊢ with hz
      rfl
    obtain ⟨h1, G, rounded, h0, hinc, g, g'⟩ := flexible_same_grid (req := .roi T) (req' := .roi T') hn hin (key h)
      (key h') rfl rfl h h'
    exact ⟨lower_target_roi G h0 hinc T T' hT xs xs' g g', h1⟩

/-- Finding: on a grid, a fixed budget of zero, which a scenario accepts, is taken for the historical spend. -/
theorem zero_budget_is_historical (O : OptGrid) (pct lower upper : Option (List ℚ)) :
    optimize O (.fixed (some 0)) pct lower upper = optimize O (.fixed none) pct lower upper := by
  unfold optimize
  simp only [Request.budget, resolveBudget, if_true, Request.defaultConstraint]
  rfl

/-- Finding: with its own grid for each run, a larger budget can spend less on every channel: the amounts are rounded to
steps of 10 below a budget of 100,000 and to steps of 100 above. -/
theorem larger_budget_less_spent : ∃ (hist : ℕ → ℚ) (outcome : ℕ → ℕ → ℚ) (xs xs' : List (Option ℤ)) (non non' : List ℤ),
    budgetOptimize 3 hist outcome true (some 99990) none none (1 / 10000) none (some [0]) (some [0]) = .ok (xs, non) ∧
    budgetOptimize 3 hist outcome true (some 100020) none none (1 / 10000) none (some [0]) (some [0]) = .ok (xs', non') ∧
    xs = [some 33330, some 33330, some 33330] ∧ xs' = [some 33300, some 33300, some 33300] :=
  ⟨fun _ => 1, fun r _ => r, _, _, [33330, 33330, 33330], [33300, 33300, 33300], by decide +kernel, by decide +kernel, rfl,
    rfl⟩

/-! ## Cases that meet the hypotheses -/

theorem demo_integer : IntegerSpends GridSearch.Props.demo := by
  intro r _ c _ s h
  unfold GridSearch.Props.demo at h
  simp only at h
  split_ifs at h
  · cases h; exact ⟨r * 10, by push_cast; ring⟩
  · cases h; exact ⟨5 + r * 10, by push_cast; ring⟩

example : gridSearch GridSearch.Props.demo (.fixedBudget 30) = .ok [some 10, some 15] ∧
    gridSearch GridSearch.Props.demo (.fixedBudget 40) = .ok [some 10, some 25] ∧
    AtMost [some 10, some 15] [some 10, some 25] :=
  ⟨by decide +kernel, by decide +kernel,
    .cons ⟨10, 10, rfl, rfl, by decide⟩ (.cons ⟨15, 25, rfl, rfl, by decide⟩ .nil)⟩

example : gridSearch GridSearch.Props.demo (.targetRoi 4) = .ok [some 10, some 25] ∧
    gridSearch GridSearch.Props.demo (.fixedBudget 35) = .ok [some 10, some 25] := ⟨by decide +kernel, by decide +kernel⟩

example : gridSearch GridSearch.Props.demo (.targetMroi 3) = .ok [some 10, some 25] ∧
    gridSearch GridSearch.Props.demo (.targetMroi 2) = .ok [some 20, some 25] := ⟨by decide +kernel, by decide +kernel⟩

example : ∃ xs xs' non non', budgetOptimize 2 (fun _ => 5) (fun r c => r * (20 + 5 * c) - r * r) false none none (some 9)
      (1 / 10000) none none none = .ok (xs, non) ∧
    budgetOptimize 2 (fun _ => 5) (fun r c => r * (20 + 5 * c) - r * r) false none none (some 6) (1 / 10000) none none
      none = .ok (xs', non') ∧ xs ≠ xs' :=
  ⟨[some 6, some 8], [some 7, some 10], [5, 5], [5, 5], by decide +kernel, by decide +kernel, by decide⟩

end Verif.Nested.Props
