import Verif.Model.EdaData
import Verif.Lemmas.Transformers
import Mathlib.Tactic

/-! # Lemmas on medians, scaling and lists of variables -/

namespace Verif.EdaData

open Verif.Transformers

/-- The median scales with a positive factor. -/
theorem median_mul (k : ℝ) (hk : 0 < k) (l : List ℝ) :
    median (l.map (k * ·)) = (median l).map (k * ·) := by
  have hs : (l.map (k * ·)).mergeSort (fun a b => decide (a ≤ b))
      = (l.mergeSort (fun a b => decide (a ≤ b))).map (k * ·) := by
    rw [List.map_mergeSort]
    intro a _ b _
    simp only [decide_eq_decide]
    exact (mul_le_mul_iff_right₀ hk).symm
  have hlen : (l.mergeSort (fun a b => decide (a ≤ b))).length = l.length := List.length_mergeSort l
  have hg : ∀ (s : List ℝ) (i : ℕ), (s.map (k * ·)).getD i 0 = k * s.getD i 0 := by
    intro s i
    simp only [List.getD_eq_getElem?_getD, List.getElem?_map]
    cases s[i]? <;> simp
  unfold median
  simp only [hs, List.length_map, hg]
  split_ifs
  · rfl
  · rfl
  · simp only [Option.map_some]
    congr 1
    ring

theorem cells_congr (G T : ℕ) (x y : Panel) (h : ∀ g < G, ∀ t < T, x g t = y g t) :
    cells G T x = cells G T y := by
  unfold cells
  apply List.flatMap_congr
  intro g hg
  apply List.map_congr_left
  intro t ht
  exact h g (List.mem_range.1 hg) t (List.mem_range.1 ht)

theorem cells_mul (G T : ℕ) (k : ℝ) (x : Panel) :
    cells G T (fun g t => k * x g t) = (cells G T x).map (k * ·) := by
  unfold cells
  rw [List.map_flatMap]
  simp only [List.map_map]
  rfl

theorem filter_mul (k : ℝ) (hk : k ≠ 0) (l : List ℝ) :
    (l.map (k * ·)).filter (fun v => decide (v ≠ 0))
      = (l.filter fun v => decide (v ≠ 0)).map (k * ·) := by
  rw [List.filter_map]
  congr 1
  apply List.filter_congr
  intro v _
  simp [hk]

theorem mediaMedian_congr (G T : ℕ) (x y : Panel) (pop : ℕ → ℝ)
    (h : ∀ g < G, ∀ t < T, x g t = y g t) : mediaMedian G T x pop = mediaMedian G T y pop := by
  unfold mediaMedian
  rw [cells_congr G T _ (fun g t => divideNoNan (y g t) (pop g))]
  intro g hg t ht
  rw [h g hg t ht]

theorem mediaMedian_mul (G T : ℕ) (k : ℝ) (hk : 0 < k) (x : Panel) (pop : ℕ → ℝ) :
    mediaMedian G T (fun g t => k * x g t) pop = (mediaMedian G T x pop).map (k * ·) := by
  unfold mediaMedian
  rw [← median_mul k hk, ← filter_mul k hk.ne', ← cells_mul]
  congr 2
  apply cells_congr
  intro g _ t _
  unfold divideNoNan
  split_ifs
  · rw [mul_div_assoc]
  · rw [mul_zero]

theorem mediaMedian_none (G T : ℕ) (x : Panel) (pop : ℕ → ℝ) :
    mediaMedian G T x pop = none ↔ ∀ g < G, ∀ t < T, x g t = 0 ∨ pop g = 0 := by
  unfold mediaMedian
  rw [(median_spec _).1, List.filter_eq_nil_iff]
  constructor
  · intro h g hg t ht
    have := h _ (mem_cells.2 ⟨g, hg, t, ht, rfl⟩)
    have this : divideNoNan (x g t) (pop g) = 0 := by
      by_contra hne
      exact this (decide_eq_true hne)
    unfold divideNoNan at this
    by_cases hp : pop g = 0
    · exact Or.inr hp
    · rw [if_pos hp, div_eq_zero_iff] at this
      exact Or.inl (this.resolve_right hp)
  · intro h v hv
    obtain ⟨g, hg, t, ht, rfl⟩ := mem_cells.1 hv
    rcases h g hg t ht with h | h <;> simp [divideNoNan, h]

/-- With non-negative data and population the median is positive. -/
theorem mediaMedian_pos (G T : ℕ) (x : Panel) (pop : ℕ → ℝ) (med : ℝ)
    (h : mediaMedian G T x pop = some med)
    (hx : ∀ g < G, ∀ t < T, 0 ≤ x g t) (hp : ∀ g < G, 0 ≤ pop g) : 0 < med := by
  obtain ⟨_, _, v, hv, w, _, b1, _⟩ := (median_spec _).2 med h
  rw [List.mem_filter] at hv
  obtain ⟨hv1, hv2⟩ := hv
  obtain ⟨g, hg, t, ht, rfl⟩ := mem_cells.1 hv1
  have hnn : 0 ≤ divideNoNan (x g t) (pop g) := by
    unfold divideNoNan
    split_ifs
    · exact div_nonneg (hx g hg t ht) (hp g hg)
    · exact le_rfl
  have hne : divideNoNan (x g t) (pop g) ≠ 0 := by simpa using hv2
  exact lt_of_lt_of_le (lt_of_le_of_ne hnn (Ne.symm hne)) b1

theorem scaleMedia_none (G T : ℕ) (x : Panel) (pop : ℕ → ℝ) :
    scaleMedia G T pop x = none ↔ ∀ g < G, ∀ t < T, x g t = 0 ∨ pop g = 0 := by
  unfold scaleMedia
  rw [Option.map_eq_none_iff, mediaMedian_none]

/-- Scaled media do not depend on the unit. -/
theorem scaleMedia_mul (G T : ℕ) (k : ℝ) (hk : 0 < k) (x : Panel) (pop : ℕ → ℝ) :
    scaleMedia G T pop (fun g t => k * x g t) = scaleMedia G T pop x := by
  unfold scaleMedia
  rw [mediaMedian_mul G T k hk, Option.map_map]
  congr 1
  funext med g t
  simp only [Function.comp_apply, mediaForward, mediaScale]
  rw [show pop g * (k * med) = k * (pop g * med) by ring, mul_div_mul_left _ _ hk.ne']

/-! ### Lists of variables -/

theorem each_none {α β : Type*} (f : String → α → Option β) (l : List (String × α)) :
    each f l = none ↔ ∃ p ∈ l, f p.1 p.2 = none := by
  induction l with
  | nil => simp [each]
  | cons p l ih =>
    obtain ⟨n, a⟩ := p
    simp only [each, List.mem_cons, exists_eq_or_imp]
    cases h : f n a with
    | none => simp
    | some b => simp [ih]

theorem each_some {α β : Type*} (f : String → α → Option β) (l : List (String × α))
    (m : List (String × β)) :
    each f l = some m ↔ List.Forall₂ (fun p q => q.1 = p.1 ∧ f p.1 p.2 = some q.2) l m := by
  induction l generalizing m with
  | nil =>
    simp only [each, Option.some.injEq]
    exact ⟨fun h => by rw [← h]; exact .nil, fun h => by cases h; rfl⟩
  | cons p l ih =>
    obtain ⟨n, a⟩ := p
    simp only [each]
    cases h : f n a with
    | none =>
      simp only [reduceCtorEq, false_iff]
      intro h'
      cases h' with
      | cons h1 _ => simp [h] at h1
    | some b =>
      simp only [Option.map_eq_some_iff]
      constructor
      · rintro ⟨m', h', rfl⟩
        exact .cons ⟨rfl, h⟩ ((ih m').1 h')
      · intro h'
        cases h' with
        | @cons _ q _ m' h1 h2 =>
          obtain ⟨q1, q2⟩ := q
          obtain ⟨e1, e2⟩ := h1
          simp only at e1 e2
          rw [h] at e2
          cases e2
          subst e1
          exact ⟨m', (ih m').2 h2, rfl⟩

theorem each_congr {α β : Type*} (f f' : String → α → Option β) (l : List (String × α))
    (h : ∀ p ∈ l, f p.1 p.2 = f' p.1 p.2) : each f l = each f' l := by
  induction l with
  | nil => rfl
  | cons p l ih =>
    obtain ⟨n, a⟩ := p
    simp only [each]
    rw [h (n, a) List.mem_cons_self, ih fun q hq => h q (List.mem_cons_of_mem _ hq)]

theorem each_map {α α' β : Type*} (f : String → α → Option β) (f' : String → α' → Option β)
    (e : α → α') (l : List (String × α)) (h : ∀ p ∈ l, f' p.1 (e p.2) = f p.1 p.2) :
    each f' (l.map fun p => (p.1, e p.2)) = each f l := by
  induction l with
  | nil => rfl
  | cons p l ih =>
    obtain ⟨n, a⟩ := p
    simp only [each, List.map_cons]
    rw [h (n, a) List.mem_cons_self, ih fun q hq => h q (List.mem_cons_of_mem _ hq)]

theorem join_none {α : Type*} (ls : List (Option (List α))) : join ls = none ↔ none ∈ ls := by
  induction ls with
  | nil => simp [join]
  | cons o ls ih =>
    cases o with
    | none => simp [join]
    | some l => simp [join, ih]

end Verif.EdaData
