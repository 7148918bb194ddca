import Verif.Model.GridSearch
import Verif.Lemmas.Num
import Mathlib.Algebra.BigOperators.Fin
import Mathlib.Algebra.Order.BigOperators.Group.Finset
import Mathlib.Algebra.Order.BigOperators.Ring.Finset

/-! Helper lemmas about the greedy search. -/

namespace Verif.GridSearch

open Verif Finset

/-! ### nanargmax -/

theorem mem_cells {R C : ℕ} {p : ℕ × ℕ} : p ∈ cells R C ↔ p.1 < R ∧ p.2 < C := by
  rcases p with ⟨r, c⟩
  simp [cells]

theorem cells_pairwise (R C : ℕ) :
    (cells R C).Pairwise fun p q => p.1 < q.1 ∨ (p.1 = q.1 ∧ p.2 < q.2) := by
  unfold cells
  rw [List.pairwise_flatMap]
  constructor
  · intro r _
    rw [List.pairwise_map]
    exact List.pairwise_lt_range.imp (by intro a b h; right; exact ⟨rfl, h⟩)
  · refine List.pairwise_lt_range.imp ?_
    intro a b h x hx y hy
    simp only [List.mem_map] at hx hy
    obtain ⟨_, _, rfl⟩ := hx
    obtain ⟨_, _, rfl⟩ := hy
    left; exact h

/-- What a NaN-skipping first-maximum scan has found in a list. -/
def ScanSpec (g : ℕ → ℕ → Num) (l : List (ℕ × ℕ)) : Option ((ℕ × ℕ) × ℚ) → Prop
  | none => ∀ p ∈ l, g p.1 p.2 = none
  | some (p, v) => g p.1 p.2 = some v ∧ ∃ l1 l2, l = l1 ++ p :: l2 ∧
      (∀ q ∈ l1, ∀ w, g q.1 q.2 = some w → w < v) ∧
      (∀ q ∈ l2, ∀ w, g q.1 q.2 = some w → w ≤ v)

theorem foldl_scan_spec (g : ℕ → ℕ → Num) (l2 : List (ℕ × ℕ)) :
    ∀ (l1 : List (ℕ × ℕ)) (acc), ScanSpec g l1 acc → ScanSpec g (l1 ++ l2) (l2.foldl (scan g) acc) := by
  induction l2 with
  | nil => intro l1 acc h; simpa using h
  | cons p l2 ih =>
    intro l1 acc h
    have hs : ScanSpec g (l1 ++ [p]) (scan g acc p) := by
      unfold scan
      cases hg : g p.1 p.2 with
      | none =>
        cases acc with
        | none =>
          intro q hq
          rcases List.mem_append.1 hq with hq | hq
          · exact h q hq
          · simp at hq; subst hq; exact hg
        | some a =>
          obtain ⟨q, w⟩ := a
          obtain ⟨h1, a1, a2, h2, h3, h4⟩ := h
          refine ⟨h1, a1, a2 ++ [p], by simp [h2], h3, ?_⟩
          intro x hx y hy
          rcases List.mem_append.1 hx with hx | hx
          · exact h4 x hx y hy
          · simp at hx; subst hx; rw [hg] at hy; cases hy
      | some v =>
        cases acc with
        | none =>
          refine ⟨hg, l1, [], by simp, ?_, by simp⟩
          intro q hq w hw
          rw [h q hq] at hw; cases hw
        | some a =>
          obtain ⟨q, w⟩ := a
          obtain ⟨h1, a1, a2, h2, h3, h4⟩ := h
          by_cases hlt : w < v
          · simp only [hlt, if_true]
            refine ⟨hg, l1, [], by simp, ?_, by simp⟩
            intro x hx y hy
            rw [h2] at hx
            rcases List.mem_append.1 hx with hx | hx
            · exact lt_trans (h3 x hx y hy) hlt
            · rcases List.mem_cons.1 hx with hx | hx
              · subst hx; rw [h1] at hy; cases hy; exact hlt
              · exact lt_of_le_of_lt (h4 x hx y hy) hlt
          · simp only [hlt, if_false]
            refine ⟨h1, a1, a2 ++ [p], by simp [h2], h3, ?_⟩
            intro x hx y hy
            rcases List.mem_append.1 hx with hx | hx
            · exact h4 x hx y hy
            · simp at hx; subst hx; rw [hg] at hy; cases hy; exact not_lt.1 hlt
    have := ih (l1 ++ [p]) _ hs
    simpa using this

theorem nanargmax_spec (R C : ℕ) (g : ℕ → ℕ → Num) :
    ScanSpec g (cells R C) (nanargmax R C g) := by
  have := foldl_scan_spec g (cells R C) [] none (by intro p hp; cases hp)
  simpa [nanargmax] using this

theorem nanargmax_eq_none {R C : ℕ} {g : ℕ → ℕ → Num} :
    nanargmax R C g = none ↔ ∀ r < R, ∀ c < C, g r c = none := by
  have hs := nanargmax_spec R C g
  constructor
  · intro h
    rw [h] at hs
    intro r hr c hc
    exact hs (r, c) (mem_cells.2 ⟨hr, hc⟩)
  · intro h
    cases hn : nanargmax R C g with
    | none => rfl
    | some a =>
      obtain ⟨p, v⟩ := a
      rw [hn] at hs
      obtain ⟨h1, l1, l2, h2, -, -⟩ := hs
      have hp : p ∈ cells R C := by rw [h2]; simp
      rw [mem_cells] at hp
      rw [h _ hp.1 _ hp.2] at h1
      cases h1

theorem nanargmax_eq_some {R C r c : ℕ} {v : ℚ} {g : ℕ → ℕ → Num}
    (h : nanargmax R C g = some ((r, c), v)) :
    r < R ∧ c < C ∧ g r c = some v ∧
      (∀ r' < R, ∀ c' < C, ∀ w, g r' c' = some w → w ≤ v) ∧
      (∀ r' < R, ∀ c' < C, (r' < r ∨ (r' = r ∧ c' < c)) → ∀ w, g r' c' = some w → w < v) := by
  have hs := nanargmax_spec R C g
  rw [h] at hs
  obtain ⟨h1, l1, l2, h2, h3, h4⟩ := hs
  have hp : (r, c) ∈ cells R C := by rw [h2]; simp
  rw [mem_cells] at hp
  refine ⟨hp.1, hp.2, h1, ?_, ?_⟩
  · intro r' hr' c' hc' w hw
    have hq : (r', c') ∈ cells R C := mem_cells.2 ⟨hr', hc'⟩
    rw [h2] at hq
    rcases List.mem_append.1 hq with hq | hq
    · exact (h3 _ hq w hw).le
    · rcases List.mem_cons.1 hq with hq | hq
      · cases hq; rw [h1] at hw; cases hw; exact le_rfl
      · exact h4 _ hq w hw
  · intro r' hr' c' hc' hlex w hw
    have hq : (r', c') ∈ cells R C := mem_cells.2 ⟨hr', hc'⟩
    have hpw := cells_pairwise R C
    rw [h2] at hq hpw
    rcases List.mem_append.1 hq with hq | hq
    · exact h3 _ hq w hw
    · rw [List.pairwise_append] at hpw
      rcases List.mem_cons.1 hq with hq | hq
      · cases hq; omega
      · have := (List.pairwise_cons.1 hpw.2.1).1 _ hq
        simp only at this
        omega

/-! ### Sums with NaN -/

theorem nsum_some (n : ℕ) (v : ℕ → Num) (f : ℕ → ℚ) (h : ∀ c < n, v c = some (f c)) :
    nsum n v = some (∑ c ∈ range n, f c) := by
  unfold nsum
  induction n with
  | zero => simp
  | succ n ih =>
    rw [List.range_succ, List.foldl_append, ih (fun c hc => h c (by omega)), Finset.sum_range_succ]
    simp [h n (by omega), Num.add]

/-! ### The search as a walk on rows -/

/-- The roi cell when channel `c` currently sits in grid row `k c`. -/
def roiAt (G : Grid) (k : ℕ → ℕ) : ℕ → ℕ → Num := fun r c =>
  if r + 1 ≤ k c then none
  else roiCell (Num.sub (G.out (r + 1) c) (G.out (k c) c))
    (Num.sub (G.spend (r + 1) c) (G.spend (k c) c))

/-- The loop state when channel `c` currently sits in grid row `k c`. -/
def stateOf (G : Grid) (k : ℕ → ℕ) : State where
  spend := fun c => G.spend (k c) c
  out := fun c => G.out (k c) c
  roi := roiAt G k

/-- Move channel `m` to row `r`. -/
def move (k : ℕ → ℕ) (m r : ℕ) : ℕ → ℕ := fun c => if c = m then r else k c

theorem initState_eq (G : Grid) : initState G = stateOf G (fun _ => 0) := by
  unfold initState stateOf roiAt
  simp

/-- One accepted purchase: channel `m` moves from row `k m` to row `r`. -/
structure Buys (G : Grid) (sc : Scenario) (k : ℕ → ℕ) (m r : ℕ) (v : ℚ) : Prop where
  hm : m < G.cols
  hr : r < G.rows
  up : k m < r
  roi : roiAt G k (r - 1) m = some v
  best : ∀ r' < G.rows - 1, ∀ c' < G.cols, ∀ w, roiAt G k r' c' = some w → w ≤ v
  first : ∀ r' < r - 1, ∀ w, roiAt G k r' m = some w → w < v
  ok : exceeds G.cols (fun c => G.spend (move k m r c) c) (fun c => G.out (move k m r c) c) v sc
    = false

theorem step_none {G : Grid} {sc : Scenario} {k : ℕ → ℕ} (h : step G sc (stateOf G k) = none) :
    (∀ r < G.rows - 1, ∀ c < G.cols, roiAt G k r c = none) ∨
    ∃ m r v, m < G.cols ∧ r < G.rows ∧ k m < r ∧ roiAt G k (r - 1) m = some v ∧
      (∀ r' < G.rows - 1, ∀ c' < G.cols, ∀ w, roiAt G k r' c' = some w → w ≤ v) ∧
      (∀ r' < r - 1, ∀ w, roiAt G k r' m = some w → w < v) ∧
      exceeds G.cols (fun c => G.spend (move k m r c) c) (fun c => G.out (move k m r c) c) v sc
        = true := by
  unfold step at h
  split at h
  · rename_i hn
    left
    exact nanargmax_eq_none.1 hn
  · rename_i row m v hn
    right
    obtain ⟨h1, h2, h3, h4, h5⟩ := nanargmax_eq_some hn
    have hk : k m < row + 1 := by
      by_contra hc
      have : roiAt G k row m = none := by unfold roiAt; rw [if_pos (by omega)]
      change roiAt G k row m = some v at h3
      rw [this] at h3; cases h3
    have e1 : setAt (stateOf G k).spend m (G.spend (row + 1) m)
        = fun c => G.spend (move k m (row + 1) c) c := by
      funext c; unfold setAt move stateOf; by_cases hc : c = m <;> simp [hc]
    have e2 : setAt (stateOf G k).out m (G.out (row + 1) m)
        = fun c => G.out (move k m (row + 1) c) c := by
      funext c; unfold setAt move stateOf; by_cases hc : c = m <;> simp [hc]
    refine ⟨m, row + 1, v, h2, by omega, hk, h3, h4, ?_, ?_⟩
    · intro r' hr' w hw
      exact h5 r' (by omega) m h2 (by left; omega) w hw
    · simp only [e1, e2] at h
      by_contra hc
      rw [Bool.not_eq_true] at hc
      simp [hc] at h

theorem step_some {G : Grid} {sc : Scenario} {k : ℕ → ℕ} {st' : State}
    (h : step G sc (stateOf G k) = some st') :
    ∃ m r v, Buys G sc k m r v ∧ st' = stateOf G (move k m r) := by
  unfold step at h
  split at h
  · cases h
  · rename_i row m v hn
    obtain ⟨h1, h2, h3, h4, h5⟩ := nanargmax_eq_some hn
    have hk : k m < row + 1 := by
      by_contra hc
      have : roiAt G k row m = none := by unfold roiAt; rw [if_pos (by omega)]
      change roiAt G k row m = some v at h3
      rw [this] at h3; cases h3
    have e1 : setAt (stateOf G k).spend m (G.spend (row + 1) m)
        = fun c => G.spend (move k m (row + 1) c) c := by
      funext c; unfold setAt move stateOf; by_cases hc : c = m <;> simp [hc]
    have e2 : setAt (stateOf G k).out m (G.out (row + 1) m)
        = fun c => G.out (move k m (row + 1) c) c := by
      funext c; unfold setAt move stateOf; by_cases hc : c = m <;> simp [hc]
    have e3 : updateRoi G (stateOf G k).roi row m = roiAt G (move k m (row + 1)) := by
      funext r c
      unfold updateRoi roiAt move stateOf
      by_cases hc : c = m
      · subst hc; simp
      · simp [hc, roiAt]
    simp only [e1, e2, e3] at h
    split at h
    · cases h
    · rename_i hex
      refine ⟨m, row + 1, v, ⟨h2, by omega, hk, h3, h4, ?_, by simpa using hex⟩, ?_⟩
      · intro r' hr' w hw
        exact h5 r' (by omega) m h2 (by left; omega) w hw
      · cases h; rfl

/-- The rows reached by a run of the search, starting with every channel in row 0. -/
inductive Reach (G : Grid) (sc : Scenario) : (ℕ → ℕ) → Prop
  | start : Reach G sc (fun _ => 0)
  | buy {k m r v} : Reach G sc k → Buys G sc k m r v → Reach G sc (move k m r)

theorem loop_reach {G : Grid} {sc : Scenario} :
    ∀ (fuel : ℕ) (k : ℕ → ℕ) (st : State), Reach G sc k → loop G sc fuel (stateOf G k) = some st →
      ∃ k', Reach G sc k' ∧ st = stateOf G k' ∧ step G sc (stateOf G k') = none := by
  intro fuel
  induction fuel with
  | zero => intro k st _ h; simp [loop] at h
  | succ n ih =>
    intro k st hk h
    unfold loop at h
    split at h
    · rename_i hs
      cases h
      exact ⟨k, hk, rfl, hs⟩
    · rename_i st' hs
      obtain ⟨m, r, v, hb, rfl⟩ := step_some hs
      exact ih _ _ (Reach.buy hk hb) h

theorem sum_move {n m : ℕ} (hm : m < n) (k : ℕ → ℕ) (r : ℕ) :
    (∑ c ∈ range n, move k m r c) + k m = (∑ c ∈ range n, k c) + r := by
  have hmem : m ∈ range n := mem_range.2 hm
  rw [← Finset.add_sum_erase _ _ hmem, ← Finset.add_sum_erase (range n) k hmem]
  have : ∑ c ∈ (range n).erase m, move k m r c = ∑ c ∈ (range n).erase m, k c := by
    apply Finset.sum_congr rfl
    intro c hc
    unfold move
    rw [if_neg (Finset.ne_of_mem_erase hc)]
  rw [this]
  simp [move]
  omega

theorem reach_row_lt {G : Grid} {sc : Scenario} {k : ℕ → ℕ} (hrows : 0 < G.rows)
    (h : Reach G sc k) : ∀ c, k c < G.rows := by
  induction h with
  | start => intro c; exact hrows
  | buy _ hb ih =>
    intro c
    unfold move
    split_ifs
    · exact hb.hr
    · exact ih c

theorem loop_terminates {G : Grid} {sc : Scenario} (hrows : 0 < G.rows) :
    ∀ (fuel : ℕ) (k : ℕ → ℕ), Reach G sc k →
      (G.rows - 1) * G.cols < fuel + ∑ c ∈ range G.cols, k c →
      ∃ st, loop G sc fuel (stateOf G k) = some st := by
  intro fuel
  induction fuel with
  | zero =>
    intro k hk h
    exfalso
    have hle : ∑ c ∈ range G.cols, k c ≤ ∑ _c ∈ range G.cols, (G.rows - 1) := by
      apply Finset.sum_le_sum
      intro c _
      have := reach_row_lt hrows hk c
      omega
    simp at hle
    rw [Nat.mul_comm] at hle
    omega
  | succ n ih =>
    intro k hk h
    unfold loop
    split
    · exact ⟨_, rfl⟩
    · rename_i st' hs
      obtain ⟨m, r, v, hb, rfl⟩ := step_some hs
      apply ih _ (Reach.buy hk hb)
      have := sum_move hb.hm k r
      have := hb.up
      omega

theorem finalState_ok {G : Grid} {sc : Scenario} {st : State} (h : finalState G sc = .ok st) :
    0 < G.rows ∧ ∃ k, Reach G sc k ∧ st = stateOf G k ∧ step G sc (stateOf G k) = none := by
  unfold finalState at h
  split_ifs at h with h0
  split at h
  · cases h
  · rename_i st' hl
    cases h
    rw [initState_eq] at hl
    exact ⟨Nat.pos_of_ne_zero h0, loop_reach _ _ _ Reach.start hl⟩

end Verif.GridSearch
