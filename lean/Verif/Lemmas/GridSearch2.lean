import Verif.Lemmas.GridSearch
import Verif.Spec.GridSearch
import Mathlib.Data.Finset.Max
import Mathlib.Data.Rat.Cast.Order

/-! Greedy search: finiteness, chains of purchases, concave optimality. -/

namespace Verif.GridSearch

open Verif Finset Spec

theorem roiCell_some {a b : Num} {v : ℚ} (h : roiCell a b = some v) : ∃ d, b = some d := by
  unfold roiCell at h
  cases b with
  | none => cases a <;> simp [Num.divWhere] at h
  | some d => exact ⟨d, rfl⟩

theorem sub_some {a b : Num} {d : ℚ} (h : Num.sub a b = some d) :
    ∃ x y, a = some x ∧ b = some y ∧ d = x - y := by
  cases a <;> cases b <;> simp [Num.sub] at h
  exact ⟨_, _, rfl, rfl, h.symm⟩

theorem roiAt_some {G : Grid} {k : ℕ → ℕ} {r c : ℕ} {v : ℚ} (h : roiAt G k r c = some v) :
    k c ≤ r ∧ ∃ x y, G.spend (r + 1) c = some x ∧ G.spend (k c) c = some y := by
  unfold roiAt at h
  split_ifs at h with h1
  obtain ⟨d, hd⟩ := roiCell_some h
  obtain ⟨x, y, hx, hy, -⟩ := sub_some hd
  exact ⟨by omega, x, y, hx, hy⟩

theorem reach_finite {G : Grid} {sc : Scenario} {k : ℕ → ℕ} (h0 : FirstRowFinite G)
    (h : Reach G sc k) : ∀ c < G.cols, ∃ s, G.spend (k c) c = some s := by
  induction h with
  | start => exact h0
  | @buy k m r v _ hb ih =>
    intro c hc
    unfold move
    split_ifs with hcm
    · subst hcm
      obtain ⟨-, x, y, hx, -⟩ := roiAt_some hb.roi
      have hr := hb.up
      rw [show r - 1 + 1 = r by omega] at hx
      exact ⟨x, hx⟩
    · exact ih c hc

theorem gridSearch_ok {G : Grid} {sc : Scenario} {xs : List (Option ℤ)}
    (h : gridSearch G sc = .ok xs) :
    0 < G.rows ∧ ∃ k, Reach G sc k ∧ step G sc (stateOf G k) = none ∧
      xs = (List.range G.cols).map fun c => (G.spend (k c) c).map truncInt := by
  unfold gridSearch at h
  cases hf : finalState G sc with
  | error e => rw [hf] at h; simp [Except.map] at h
  | ok st =>
    rw [hf] at h
    obtain ⟨h0, k, hk, rfl, hs⟩ := finalState_ok hf
    simp only [Except.map] at h
    injection h with h
    exact ⟨h0, k, hk, hs, h.symm⟩

theorem isChoice_of_reach {G : Grid} {sc : Scenario} {k : ℕ → ℕ} (h0 : FirstRowFinite G)
    (hrows : 0 < G.rows) (h : Reach G sc k) :
    IsChoice G k ((List.range G.cols).map fun c => (G.spend (k c) c).map truncInt) := by
  refine ⟨by simp, fun c hc => ⟨reach_row_lt hrows h c, ?_⟩⟩
  obtain ⟨s, hs⟩ := reach_finite h0 h c hc
  exact ⟨s, hs, by simp [hc, hs]⟩

theorem total_map (n : ℕ) (g : ℕ → Option ℤ) :
    total ((List.range n).map g) = ∑ c ∈ range n, (g c).getD 0 := by
  unfold total
  induction n with
  | zero => simp
  | succ n ih =>
    rw [Finset.sum_range_succ, ← ih, List.range_succ]
    simp

theorem total_choice {G : Grid} {k : ℕ → ℕ} {xs : List (Option ℤ)} (h : IsChoice G k xs)
    {s : ℕ → ℚ} (hs : ∀ c < G.cols, G.spend (k c) c = some (s c)) :
    total xs = ∑ c ∈ range G.cols, truncInt (s c) := by
  have : xs = (List.range G.cols).map fun c => some (truncInt (s c)) := by
    apply List.ext_getElem?
    intro i
    by_cases hi : i < G.cols
    · obtain ⟨-, t, ht, hx⟩ := h.2 i hi
      rw [hs i hi] at ht
      cases ht
      rw [hx]
      simp [hi]
    · rw [List.getElem?_eq_none (by rw [h.1]; omega), List.getElem?_eq_none (by simp; omega)]
  rw [this, total_map]
  simp

/-! ### Budget -/

theorem reach_budget {G : Grid} {B : ℚ} {k : ℕ → ℕ}
    (h : Reach G (.fixedBudget B) k) {s0 : ℕ → ℚ} (hs0 : ∀ c < G.cols, G.spend 0 c = some (s0 c))
    {s : ℕ → ℚ} (hs : ∀ c < G.cols, G.spend (k c) c = some (s c)) :
    (∑ c ∈ range G.cols, s c ≤ B) ∨ (∀ c < G.cols, s c = s0 c) := by
  cases h with
  | start =>
    right; intro c hc
    have := hs c hc; rw [hs0 c hc] at this; exact (Option.some.inj this).symm
  | @buy k m r v hk hb =>
    left
    have hok := hb.ok
    unfold exceeds at hok
    rw [nsum_some G.cols _ s hs] at hok
    simpa [Num.lt] using hok

/-! ### Marginal target -/

theorem roiAt_value {G : Grid} {k : ℕ → ℕ} {r c : ℕ} {v x y a b : ℚ}
    (h : roiAt G k r c = some v) (hx : G.spend (r + 1) c = some x) (hy : G.spend (k c) c = some y)
    (ha : G.out (r + 1) c = some a) (hb : G.out (k c) c = some b) (hxy : y < x) :
    v = npRound ((a - b) / (x - y)) 8 := by
  unfold roiAt at h
  split_ifs at h
  rw [hx, hy, ha, hb] at h
  have hne : x - y ≠ 0 := by linarith
  simp only [roiCell, Num.sub, Num.divWhere, if_neg hne, Option.map_some] at h
  exact (Option.some.inj h).symm

theorem reach_mroi {G : Grid} {T : ℚ} {k : ℕ → ℕ} (hrows : 0 < G.rows)
    (hinc : IncreasingSpends G) (hout : OutcomeWhereSpend G)
    (h : Reach G (.targetMroi T) k) : ∀ c < G.cols, ∀ s s0 o o0,
      G.spend (k c) c = some s → G.spend 0 c = some s0 → G.out (k c) c = some o →
      G.out 0 c = some o0 → (T - 1 / 2 / (10 : ℚ) ^ (8 : ℤ)) * (s - s0) ≤ o - o0 := by
  induction h with
  | start =>
    intro c _ s s0 o o0 hs hs0 ho ho0
    simp only at hs ho
    rw [hs] at hs0; cases hs0
    rw [ho] at ho0; cases ho0
    simp
  | @buy k m r v hk hb ih =>
    intro c hc s s0 o o0 hs hs0 ho ho0
    unfold move at hs ho
    split_ifs at hs ho with hcm
    · subst hcm
      have hup := hb.up
      obtain ⟨-, x, y, hx, hy⟩ := roiAt_some hb.roi
      rw [show r - 1 + 1 = r by omega] at hx
      rw [hs] at hx
      obtain rfl := Option.some.inj hx
      have hrow := reach_row_lt hrows hk c
      obtain ⟨b, hbo⟩ := hout (k c) hrow c hc y hy
      have hlt := hinc c hc (k c) r y s hup hb.hr hy hs
      have hv := roiAt_value hb.roi (by rw [show r - 1 + 1 = r by omega]; exact hs) hy
        (by rw [show r - 1 + 1 = r by omega]; exact ho) hbo hlt
      have hok := hb.ok
      simp only [exceeds, decide_eq_false_iff_not, not_lt] at hok
      have hprev := ih c hc y s0 b o0 hy hs0 hbo ho0
      have hrd := npRound_le ((o - b) / (s - y)) 8
      rw [← hv] at hrd
      have hpos : 0 < s - y := by linarith
      have h3 : T - 1 / 2 / (10 : ℚ) ^ (8 : ℤ) ≤ (o - b) / (s - y) := by linarith
      rw [le_div_iff₀ hpos] at h3
      linarith
    · exact ih c hc s s0 o o0 hs hs0 ho ho0

/-! ### Regular concave grids -/

section Concave

variable {G : Grid} {σ : ℚ} {K : ℕ → ℕ} {base : ℕ → ℚ} {f : ℕ → ℕ → ℚ}

/-- Gain of the step from row `j` to row `j + 1`, per unit of spend. -/
def slope (σ : ℚ) (f : ℕ → ℕ → ℚ) (c j : ℕ) : ℚ := (f c (j + 1) - f c j) / σ

theorem slope_anti (hσ : 0 < σ) (hc : Concave G.cols K f) {c : ℕ} (hcc : c < G.cols) {i : ℕ} :
    ∀ {j : ℕ}, i ≤ j → j + 1 ≤ K c → slope σ f c j ≤ slope σ f c i := by
  intro j hij hj
  induction j, hij using Nat.le_induction with
  | base => exact le_rfl
  | succ j hij ih =>
    refine le_trans ?_ (ih (by omega))
    unfold slope
    have := hc c hcc j (by omega)
    gcongr

theorem gain_le (hσ : 0 < σ) (hc : Concave G.cols K f) {c : ℕ} (hcc : c < G.cols) {i : ℕ} :
    ∀ {j : ℕ}, i ≤ j → j ≤ K c → f c j - f c i ≤ slope σ f c i * (((j : ℚ) - i) * σ) := by
  intro j hij
  induction j, hij using Nat.le_induction with
  | base => intro _; simp
  | succ j hij ih =>
    intro hj
    have h1 := ih (by omega)
    have h2 := slope_anti hσ hc hcc hij hj
    have h3 : f c (j + 1) - f c j = slope σ f c j * σ := by unfold slope; field_simp
    have h4 : slope σ f c j * σ ≤ slope σ f c i * σ := by gcongr
    push_cast
    nlinarith

theorem gain_ge (hσ : 0 < σ) (hc : Concave G.cols K f) {c : ℕ} (hcc : c < G.cols) {j : ℕ}
    (hj : j + 1 ≤ K c) :
    ∀ {n i : ℕ}, i + n = j + 1 → slope σ f c j * ((n : ℚ) * σ) ≤ f c (j + 1) - f c i := by
  intro n
  induction n with
  | zero => intro i hi; simp at hi; subst hi; simp
  | succ n ih =>
    intro i hi
    have h1 := ih (i := i + 1) (by omega)
    have h2 := slope_anti hσ hc hcc (show i ≤ j by omega) hj
    have h3 : f c (i + 1) - f c i = slope σ f c i * σ := by unfold slope; field_simp
    have h4 : slope σ f c j * σ ≤ slope σ f c i * σ := by gcongr
    push_cast
    nlinarith

theorem roiAt_regular (hG : Regular G σ K base f) {k : ℕ → ℕ} {c : ℕ} (hcc : c < G.cols)
    {r : ℕ} (hkr : k c ≤ r) (hr : r + 1 ≤ K c) :
    roiAt G k r c
      = some (npRound ((f c (r + 1) - f c (k c)) / (((r + 1 : ℕ) : ℚ) * σ - k c * σ)) 8) := by
  unfold roiAt
  rw [if_neg (by omega), hG.spend_eq c hcc _ hr, hG.spend_eq c hcc _ (by omega),
    hG.out_eq c hcc _ hr, hG.out_eq c hcc _ (by omega)]
  have hσ := hG.step_pos
  have hne : ((r + 1 : ℕ) : ℚ) * σ - k c * σ ≠ 0 := by
    have : ((k c : ℕ) : ℚ) < ((r + 1 : ℕ) : ℚ) := by exact_mod_cast (by omega : k c < r + 1)
    have : 0 < (((r + 1 : ℕ) : ℚ) - k c) * σ := by apply mul_pos _ hσ; linarith
    nlinarith
  have e : base c + ((r + 1 : ℕ) : ℚ) * σ - (base c + k c * σ) = ((r + 1 : ℕ) : ℚ) * σ - k c * σ := by
    ring
  simp only [roiCell, Num.sub, e]
  simp only [Num.divWhere, if_neg hne, Option.map_some]

theorem roiAt_next (hG : Regular G σ K base f) {k : ℕ → ℕ} {c : ℕ} (hcc : c < G.cols)
    (hr : k c + 1 ≤ K c) :
    roiAt G k (k c) c = some (npRound (slope σ f c (k c)) 8) := by
  rw [roiAt_regular hG hcc le_rfl hr]
  congr 2
  unfold slope
  congr 1
  push_cast; ring

theorem roiAt_beyond (hG : Regular G σ K base f) {k : ℕ → ℕ} {c : ℕ} (hcc : c < G.cols)
    {r : ℕ} (hr : K c < r + 1) (hr2 : r + 1 < G.rows) : roiAt G k r c = none := by
  unfold roiAt
  split_ifs
  · rfl
  · rw [hG.spend_nan c hcc _ hr hr2]
    have : ∀ b, Num.sub none b = none := by intro b; cases b <;> rfl
    rw [this]
    have : ∀ a, roiCell a none = none := by intro a; cases a <;> rfl
    exact this _

theorem buys_regular (hG : Regular G σ K base f) (hc : Concave G.cols K f) {sc : Scenario}
    {k : ℕ → ℕ} {m r : ℕ} {v : ℚ} (hb : Buys G sc k m r v) :
    r = k m + 1 ∧ r ≤ K m ∧ v = npRound (slope σ f m (k m)) 8 := by
  have hσ := hG.step_pos
  have hup := hb.up
  have hr : r ≤ K m := by
    by_contra h
    have := roiAt_beyond hG (k := k) hb.hm (r := r - 1) (by omega) (by have := hb.hr; omega)
    rw [hb.roi] at this; cases this
  have hval := roiAt_regular hG (k := k) hb.hm (r := r - 1) (by omega) (by omega)
  rw [show r - 1 + 1 = r by omega, hb.roi] at hval
  have hnext := roiAt_next hG (k := k) hb.hm (by omega)
  have hle : v ≤ npRound (slope σ f m (k m)) 8 := by
    cases hval
    apply npRound_mono
    have h1 := gain_le hσ hc hb.hm (show k m ≤ r by omega) hr
    have hpos : 0 < ((r : ℚ) - k m) * σ := by
      apply mul_pos _ hσ
      have : ((k m : ℕ) : ℚ) < r := by exact_mod_cast hup
      linarith
    rw [show (r : ℚ) * σ - k m * σ = ((r : ℚ) - k m) * σ by ring, div_le_iff₀ hpos]
    exact h1
  have hreq : r = k m + 1 := by
    by_contra h
    have := hb.first (k m) (by omega) _ hnext
    linarith
  refine ⟨hreq, hr, ?_⟩
  have h2 := hb.roi
  rw [show r - 1 = k m by omega, hnext] at h2
  cases h2; rfl

/-- Exchange invariant: nothing still available is (in rounded ROI) better than the last step
bought in any channel. -/
def Exchange (G : Grid) (σ : ℚ) (K : ℕ → ℕ) (f : ℕ → ℕ → ℚ) (k : ℕ → ℕ) : Prop :=
  (∀ c < G.cols, k c ≤ K c) ∧
  ∀ i < G.cols, ∀ j < G.cols, 0 < k i → k j < K j →
    npRound (slope σ f j (k j)) 8 ≤ npRound (slope σ f i (k i - 1)) 8

theorem reach_exchange (hG : Regular G σ K base f) (hc : Concave G.cols K f) {sc : Scenario}
    {k : ℕ → ℕ} (h : Reach G sc k) : Exchange G σ K f k := by
  have hσ := hG.step_pos
  induction h with
  | start => exact ⟨fun c _ => Nat.zero_le _, fun i _ j _ h => absurd h (lt_irrefl 0)⟩
  | @buy k m r v hk hb ih =>
    obtain ⟨hr, hrK, hv⟩ := buys_regular hG hc hb
    subst hr
    refine ⟨?_, ?_⟩
    · intro c hcc
      unfold move
      split_ifs with h
      · rw [h]; exact hrK
      · exact ih.1 c hcc
    · have hm_next : ∀ j < G.cols, move k m (k m + 1) j < K j →
          npRound (slope σ f j (move k m (k m + 1) j)) 8 ≤ v := by
        intro j hj hroom
        by_cases hjm : j = m
        · subst hjm
          simp only [move, if_true] at hroom ⊢
          rw [hv]
          exact npRound_mono _ (slope_anti hσ hc hj (by omega) (by omega))
        · simp only [move, hjm, if_false] at hroom ⊢
          refine hb.best (k j) ?_ j hj _ (roiAt_next hG hj hroom)
          have := hG.K_lt j hj; omega
      intro i hi j hj hpos hroom
      by_cases him : i = m
      · subst him
        have := hm_next j hj hroom
        simpa [move, ← hv] using this
      · have hpi : 0 < k i := by simpa [move, him] using hpos
        have e : move k m (k m + 1) i = k i := by simp [move, him]
        rw [e]
        by_cases hjm : j = m
        · subst hjm
          refine le_trans (hm_next j hj hroom) ?_
          rw [hv]
          exact ih.2 i hi j hj hpi (by omega)
        · simp only [move, hjm, if_false] at hroom ⊢
          exact ih.2 i hi j hj hpi hroom

/-- A price `lam` separates the steps bought from the steps still available. -/
theorem exists_price (hnn : ∀ c < G.cols, k c ≤ K c) (h : Exchange G σ K f k) :
    ∃ lam : ℚ, (∀ j < G.cols, k j < K j → npRound (slope σ f j (k j)) 8 ≤ lam) ∧
      (∀ i < G.cols, 0 < k i → lam ≤ npRound (slope σ f i (k i - 1)) 8) ∧
      ((∀ c < G.cols, ∀ j < K c, 0 ≤ slope σ f c j) → 0 ≤ lam) := by
  classical
  by_cases hA : ∃ j < G.cols, k j < K j
  · have hne : ((range G.cols).filter fun j => k j < K j).Nonempty := by
      obtain ⟨j, hj, hk⟩ := hA
      exact ⟨j, by simp [hj, hk]⟩
    obtain ⟨j0, hj0, hmax⟩ := Finset.exists_max_image _
      (fun j => npRound (slope σ f j (k j)) 8) hne
    simp only [mem_filter, mem_range] at hj0 hmax
    refine ⟨npRound (slope σ f j0 (k j0)) 8, ?_, ?_, ?_⟩
    · intro j hj hk; exact hmax j ⟨hj, hk⟩
    · intro i hi hpos; exact h.2 i hi j0 hj0.1 hpos hj0.2
    · intro hn; exact npRound_nonneg _ (hn j0 hj0.1 _ hj0.2)
  · push Not at hA
    by_cases hB : ∃ i < G.cols, 0 < k i
    · have hne : ((range G.cols).filter fun i => 0 < k i).Nonempty := by
        obtain ⟨j, hj, hk⟩ := hB
        exact ⟨j, by simp [hj, hk]⟩
      obtain ⟨i0, hi0, hmin⟩ := Finset.exists_min_image _
        (fun i => npRound (slope σ f i (k i - 1)) 8) hne
      simp only [mem_filter, mem_range] at hi0 hmin
      refine ⟨npRound (slope σ f i0 (k i0 - 1)) 8, ?_, ?_, ?_⟩
      · intro j hj hk; have := hA j hj; omega
      · intro i hi hpos; exact hmin i ⟨hi, hpos⟩
      · intro hn
        refine npRound_nonneg _ (hn i0 hi0.1 _ ?_)
        have := hnn i0 hi0.1; omega
    · push Not at hB
      exact ⟨0, fun j hj hk => by have := hA j hj; omega,
        fun i hi hp => by have := hB i hi; omega, fun _ => le_rfl⟩

theorem gain_vs_price (hG : Regular G σ K base f) (hc : Concave G.cols K f) {k : ℕ → ℕ}
    {lam δ : ℚ} (hδ : δ = 1 / 2 / (10 : ℚ) ^ (8 : ℤ))
    (h1 : ∀ j < G.cols, k j < K j → npRound (slope σ f j (k j)) 8 ≤ lam)
    (h2 : ∀ i < G.cols, 0 < k i → lam ≤ npRound (slope σ f i (k i - 1)) 8)
    {c l : ℕ} (hcc : c < G.cols) (hk : k c ≤ K c) (hl : l ≤ K c) :
    f c l - f c (k c) ≤ lam * (((l : ℚ) - k c) * σ) + δ * (|(l : ℚ) - k c| * σ) := by
  have hσ := hG.step_pos
  rcases lt_trichotomy (k c) l with hlt | heq | hgt
  · have hg := gain_le hσ hc hcc hlt.le hl
    have hp := h1 c hcc (by omega)
    have hr := le_npRound (slope σ f c (k c)) 8
    rw [← hδ] at hr
    have hpos : 0 < (l : ℚ) - k c := by
      have : ((k c : ℕ) : ℚ) < l := by exact_mod_cast hlt
      linarith
    rw [abs_of_pos hpos]
    have : slope σ f c (k c) * (((l : ℚ) - k c) * σ) ≤ (lam + δ) * (((l : ℚ) - k c) * σ) := by
      gcongr; linarith
    linarith
  · subst heq; simp
  · have hj : k c - 1 + 1 ≤ K c := by omega
    have hg := gain_ge hσ hc hcc hj (n := k c - l) (i := l) (by omega)
    rw [show k c - 1 + 1 = k c by omega] at hg
    have hp := h2 c hcc (by omega)
    have hr := npRound_le (slope σ f c (k c - 1)) 8
    rw [← hδ] at hr
    have hneg : (l : ℚ) - k c < 0 := by
      have : (l : ℚ) < k c := by exact_mod_cast hgt
      linarith
    rw [abs_of_neg hneg]
    have hcast : ((k c - l : ℕ) : ℚ) = (k c : ℚ) - l := by
      rw [Nat.cast_sub hgt.le]
    rw [hcast] at hg
    have : (lam - δ) * (((k c : ℚ) - l) * σ) ≤ slope σ f c (k c - 1) * (((k c : ℚ) - l) * σ) := by
      have : 0 < (k c : ℚ) - l := by linarith
      gcongr; linarith
    linarith

end Concave

end Verif.GridSearch
