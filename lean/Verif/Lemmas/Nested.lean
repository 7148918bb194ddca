import Verif.Lemmas.Optimizer2

/-!
# The path of purchases, whatever the scenario
-/

namespace Verif.GridSearch

open Verif Verif.GridSearch.Spec Finset

/-- The rows after `i` purchases if the search never stops early. -/
inductive Path (G : Grid) : ℕ → (ℕ → ℕ) → Prop
  | start : Path G 0 (fun _ => 0)
  | buy {i k row m v} : Path G i k → nanargmax (G.rows - 1) G.cols (roiAt G k) = some ((row, m), v) →
      Path G (i + 1) (move k m (row + 1))

theorem path_unique {G : Grid} {i : ℕ} : ∀ {k k' : ℕ → ℕ}, Path G i k → Path G i k' → k = k' := by
  induction i with
  | zero =>
    intro k k' h h'
    cases h; cases h'; rfl
  | succ i ih =>
    intro k k' h h'
    cases h with
    | buy h1 h2 =>
      cases h' with
      | buy h1' h2' =>
        have := ih h1 h1'
        subst this
        rw [h2] at h2'
        simp only [Option.some.injEq, Prod.mk.injEq] at h2'
        obtain ⟨⟨rfl, rfl⟩, -⟩ := h2'
        rfl

theorem path_step {G : Grid} {k : ℕ → ℕ} {row m : ℕ} {v : ℚ}
    (h : nanargmax (G.rows - 1) G.cols (roiAt G k) = some ((row, m), v)) :
    m < G.cols ∧ row + 1 < G.rows ∧ k m < row + 1 ∧ ∃ x y, G.spend (row + 1) m = some x ∧ G.spend (k m) m = some y := by
  obtain ⟨h1, h2, h3, -, -⟩ := nanargmax_eq_some h
  obtain ⟨h4, x, y, hx, hy⟩ := roiAt_some h3
  exact ⟨h2, by omega, by omega, x, y, hx, hy⟩

theorem path_prefix {G : Grid} {i j : ℕ} (hij : i ≤ j) : ∀ {k'}, Path G j k' → ∃ k, Path G i k := by
  induction j, hij using Nat.le_induction with
  | base => intro k' h; exact ⟨k', h⟩
  | succ j _ ih =>
    intro k' h
    cases h with
    | buy h1 _ => exact ih h1

theorem path_mono {G : Grid} {i j : ℕ} (hij : i ≤ j) : ∀ {k k'}, Path G i k → Path G j k' → ∀ c, k c ≤ k' c := by
  induction j, hij using Nat.le_induction with
  | base => intro k k' h h' c; rw [path_unique h h']
  | succ j hij ih =>
    intro k k' h h' c
    cases h' with
    | buy h1 h2 =>
      refine le_trans (ih h h1 c) ?_
      obtain ⟨-, -, h3, -⟩ := path_step h2
      unfold move
      split_ifs with hc
      · subst hc; omega
      · exact le_rfl

theorem path_row_lt {G : Grid} (hr : 0 < G.rows) {i : ℕ} : ∀ {k}, Path G i k → ∀ c, k c < G.rows := by
  induction i with
  | zero => intro k h c; cases h; exact hr
  | succ i ih =>
    intro k h c
    cases h with
    | buy h1 h2 =>
      obtain ⟨-, h3, -, -⟩ := path_step h2
      unfold move
      split_ifs
      · exact h3
      · exact ih h1 c

theorem path_finite {G : Grid} (h0 : FirstRowFinite G) {i : ℕ} :
    ∀ {k}, Path G i k → ∀ c < G.cols, ∃ s, G.spend (k c) c = some s := by
  induction i with
  | zero => intro k h; cases h; exact h0
  | succ i ih =>
    intro k h c hc
    cases h with
    | buy h1 h2 =>
      obtain ⟨-, -, -, x, y, hx, -⟩ := path_step h2
      unfold move
      split_ifs with hcm
      · subst hcm; exact ⟨x, hx⟩
      · exact ih h1 c hc

/-- A step of the loop, by the next purchase. -/
theorem step_eq (G : Grid) (sc : Scenario) (k : ℕ → ℕ) : step G sc (stateOf G k) =
    match nanargmax (G.rows - 1) G.cols (roiAt G k) with
    | none => none
    | some ((row, m), v) =>
      if exceeds G.cols (fun c => G.spend (move k m (row + 1) c) c) (fun c => G.out (move k m (row + 1) c) c) v sc then none
      else some (stateOf G (move k m (row + 1))) := by
  unfold step
  change (match nanargmax (G.rows - 1) G.cols (roiAt G k) with | none => none | some ((row, m), v) => _) = _
  cases hn : nanargmax (G.rows - 1) G.cols (roiAt G k) with
  | none => rfl
  | some a =>
    obtain ⟨⟨row, m⟩, v⟩ := a
    have e1 : setAt (stateOf G k).spend m (G.spend (row + 1) m)
        = fun c => G.spend (move k m (row + 1) c) c := by
      funext c; unfold setAt move stateOf; by_cases hc : c = m <;> simp [hc]
    have e2 : setAt (stateOf G k).out m (G.out (row + 1) m)
        = fun c => G.out (move k m (row + 1) c) c := by
      funext c; unfold setAt move stateOf; by_cases hc : c = m <;> simp [hc]
    have e3 : updateRoi G (stateOf G k).roi row m = roiAt G (move k m (row + 1)) := by
      funext r c
      unfold updateRoi roiAt move stateOf
      by_cases hc : c = m
      · subst hc; simp
      · simp [hc, roiAt]
    simp only [e1, e2, e3]
    rfl

theorem loop_path {G : Grid} {sc : Scenario} : ∀ (fuel i : ℕ) (k : ℕ → ℕ) (st : State), Path G i k →
    (∀ j < i, ∀ kj, Path G j kj → step G sc (stateOf G kj) ≠ none) → loop G sc fuel (stateOf G k) = some st →
    ∃ i' k', Path G i' k' ∧ st = stateOf G k' ∧ step G sc (stateOf G k') = none ∧
      ∀ j < i', ∀ kj, Path G j kj → step G sc (stateOf G kj) ≠ none := by
  intro fuel
  induction fuel with
  | zero => intro i k st _ _ h; simp [loop] at h
  | succ n ih =>
    intro i k st hk hgo h
    unfold loop at h
    cases hs : step G sc (stateOf G k) with
    | none =>
      rw [hs] at h
      cases h
      exact ⟨i, k, hk, rfl, hs, hgo⟩
    | some st' =>
      rw [hs] at h
      simp only at h
      have hs' := hs
      rw [step_eq] at hs'
      cases hn : nanargmax (G.rows - 1) G.cols (roiAt G k) with
      | none => rw [hn] at hs'; cases hs'
      | some a =>
        obtain ⟨⟨row, m⟩, v⟩ := a
        rw [hn] at hs'
        simp only at hs'
        split_ifs at hs'
        cases hs'
        refine ih (i + 1) _ st (Path.buy hk hn) ?_ h
        intro j hj kj hkj
        rcases Nat.lt_succ_iff_lt_or_eq.1 hj with hj | rfl
        · exact hgo j hj kj hkj
        · rw [path_unique hkj hk, hs]; simp

/-- Where a search stops on the path. -/
theorem search_path {G : Grid} {sc : Scenario} {xs : List (Option ℤ)} (h : gridSearch G sc = .ok xs) :
    0 < G.rows ∧ ∃ i k, Path G i k ∧ xs = ((List.range G.cols).map fun c => (G.spend (k c) c).map truncInt) ∧
      step G sc (stateOf G k) = none ∧ ∀ j < i, ∀ kj, Path G j kj → step G sc (stateOf G kj) ≠ none := by
  unfold gridSearch finalState at h
  split_ifs at h with h0
  · simp [Except.map] at h
  cases hl : loop G sc ((G.rows - 1) * G.cols + 1) (initState G) with
  | none => rw [hl] at h; simp [Except.map] at h
  | some st =>
    rw [hl] at h
    simp only [Except.map, Except.ok.injEq] at h
    rw [initState_eq] at hl
    obtain ⟨i, k, h1, rfl, h3, h4⟩ := loop_path _ 0 _ _ Path.start (by intro j hj; omega) hl
    exact ⟨Nat.pos_of_ne_zero h0, i, k, h1, h.symm, h3, h4⟩

theorem truncInt_mono {x y : ℚ} (h : x ≤ y) : truncInt x ≤ truncInt y := by
  unfold truncInt
  split_ifs with h1 h2 h2
  · exact Int.floor_le_floor h
  · exact absurd (le_trans h1 h) h2
  · push Not at h1
    have h3 : ⌈x⌉ ≤ 0 := Int.ceil_le.2 (by simpa using h1.le)
    have h4 : 0 ≤ ⌊y⌋ := Int.floor_nonneg.2 h2
    omega
  · exact Int.ceil_le_ceil h

/-- A price below which the steps left are and above which the steps bought are: the target of a target-mROI search. -/
theorem target_price {G : Grid} {σ T : ℚ} {K : ℕ → ℕ} {base : ℕ → ℚ} {f : ℕ → ℕ → ℚ}
    (hG : Regular G σ K base f) (hc : Concave G.cols K f) {k : ℕ → ℕ} (h : Reach G (.targetMroi T) k) :
    ∀ i < G.cols, 0 < k i → T ≤ npRound (slope σ f i (k i - 1)) 8 := by
  induction h with
  | start => intro i _ h; exact absurd h (lt_irrefl 0)
  | @buy k m r v hk hb ih =>
    obtain ⟨hr, -, hv⟩ := buys_regular hG hc hb
    intro i hi hpos
    by_cases him : i = m
    · subst him
      have hok := hb.ok
      simp only [exceeds, decide_eq_false_iff_not, not_lt] at hok
      have e : move k i r i = r := by simp [move]
      rw [e, hr, Nat.add_sub_cancel, ← hv]
      exact hok
    · have e : move k m r i = k i := by simp [move, him]
      rw [e] at hpos ⊢
      exact ih i hi hpos

end Verif.GridSearch
