import Verif.Model.Weekly
import Verif.Spec.Weekly
import Verif.Lemmas.Optimizer
import Mathlib.Tactic

/-! # Lemmas on interpolation, sorting and batches -/

namespace Verif.Weekly

open Verif.Weekly.Spec Verif.Optimizer

/-! ### Interpolation -/

theorem interp_le_first {p : ℚ × ℚ} {l : List (ℚ × ℚ)} {x : ℚ} (h : x ≤ p.1) :
    interp (p :: l) x = p.2 := by
  cases l with
  | nil => rfl
  | cons q l => simp only [interp, h, if_true]

theorem interp_segment {p q : ℚ × ℚ} {l : List (ℚ × ℚ)} {x : ℚ} (hpq : p.1 < q.1) (h1 : p.1 ≤ x)
    (h2 : x ≤ q.1) : interp (p :: q :: l) x = p.2 + (q.2 - p.2) / (q.1 - p.1) * (x - p.1) := by
  have hd : q.1 - p.1 ≠ 0 := by linarith
  simp only [interp]
  rcases h1.lt_or_eq with h | h
  · rw [if_neg (not_le.2 h)]
    rcases h2.lt_or_eq with h' | h'
    · rw [if_pos h']
    · rw [if_neg (by rw [h']; exact lt_irrefl _), interp_le_first h'.le, h']
      field_simp
      ring
  · rw [if_pos h.symm.le, h]
    ring

theorem interp_skip {p q : ℚ × ℚ} {l : List (ℚ × ℚ)} {x : ℚ} (hpq : p.1 < q.1) (h : q.1 ≤ x) :
    interp (p :: q :: l) x = interp (q :: l) x := by
  simp only [interp]
  rw [if_neg (by linarith), if_neg (by linarith)]

theorem increasing_tail {p : ℚ × ℚ} {l : List (ℚ × ℚ)} (h : Increasing (p :: l)) : Increasing l :=
  (List.pairwise_cons.1 h).2

theorem interp_prefix {u : List (ℚ × ℚ)} {p : ℚ × ℚ} {v : List (ℚ × ℚ)}
    (h : Increasing (u ++ p :: v)) {x : ℚ} (hx : p.1 ≤ x) :
    interp (u ++ p :: v) x = interp (p :: v) x := by
  induction u with
  | nil => rfl
  | cons a u ih =>
    have hi := increasing_tail h
    have hlt := (List.pairwise_cons.1 h).1
    cases u with
    | nil =>
      exact interp_skip (hlt p (by simp)) hx
    | cons b u =>
      rw [← ih hi]
      refine interp_skip (hlt b (by simp)) ?_
      have := (List.pairwise_cons.1 hi).1 p (by simp)
      linarith

/-- Every place is before the first node, after the last, or between two neighbours. -/
theorem position (l : List (ℚ × ℚ)) (h : Increasing l) (hne : l ≠ []) (x : ℚ) :
    (∃ p, l.head? = some p ∧ x ≤ p.1) ∨ (∃ p, l.getLast? = some p ∧ p.1 ≤ x) ∨
      ∃ p q, Neighbours l p q ∧ p.1 ≤ x ∧ x ≤ q.1 := by
  induction l with
  | nil => exact absurd rfl hne
  | cons p l ih =>
    cases l with
    | nil =>
      rcases le_total x p.1 with hx | hx
      · exact Or.inl ⟨p, rfl, hx⟩
      · exact Or.inr (Or.inl ⟨p, rfl, hx⟩)
    | cons q l =>
      rcases le_total x p.1 with hx | hx
      · exact Or.inl ⟨p, rfl, hx⟩
      rcases le_total x q.1 with hx' | hx'
      · exact Or.inr (Or.inr ⟨p, q, ⟨[], l, rfl⟩, hx, hx'⟩)
      rcases ih (increasing_tail h) (by simp) with ⟨p', hp', hle⟩ | ⟨p', hp', hle⟩ | ⟨a, b, ⟨u, v, e⟩, h1, h2⟩
      · obtain rfl : q = p' := by simpa using hp'
        cases l with
        | nil => exact Or.inr (Or.inl ⟨q, rfl, hx'⟩)
        | cons r l =>
          have hr : q.1 < r.1 := (List.pairwise_cons.1 (increasing_tail h)).1 r (by simp)
          exact Or.inr (Or.inr ⟨q, r, ⟨[p], l, rfl⟩, hx', hle.trans hr.le⟩)
      · exact Or.inr (Or.inl ⟨p', by rw [List.getLast?_cons_cons]; exact hp', hle⟩)
      · exact Or.inr (Or.inr ⟨a, b, ⟨p :: u, v, by rw [e]; rfl⟩, h1, h2⟩)

theorem interp_neighbours {l : List (ℚ × ℚ)} (h : Increasing l) {p q : ℚ × ℚ}
    (hn : Neighbours l p q) {x : ℚ} (h1 : p.1 ≤ x) (h2 : x ≤ q.1) :
    p.1 < q.1 ∧ interp l x = p.2 + (q.2 - p.2) / (q.1 - p.1) * (x - p.1) := by
  obtain ⟨u, v, rfl⟩ := hn
  have hpq : p.1 < q.1 :=
    (List.pairwise_cons.1 (List.pairwise_append.1 h).2.1).1 q (by simp)
  rw [interp_prefix h h1, interp_segment hpq h1 h2]
  exact ⟨hpq, rfl⟩

theorem interp_after {l : List (ℚ × ℚ)} (h : Increasing l) {p : ℚ × ℚ} (hp : l.getLast? = some p)
    {x : ℚ} (hx : p.1 ≤ x) : interp l x = p.2 := by
  obtain ⟨u, rfl⟩ := List.getLast?_eq_some_iff.1 hp
  rw [interp_prefix h hx]
  rfl

/-! ### Sorting by date -/

theorem argsort_perm (ts : List ℤ) : (argsort ts).Perm (List.range ts.length) := by
  unfold argsort
  refine ((List.perm_insertionSort _ _).map _).trans ?_
  rw [List.zipIdx_map_snd, List.range_eq_range']

theorem filterMap_range {α : Type} (l : List α) :
    (List.range l.length).filterMap (l[·]?) = l := by
  induction l with
  | nil => rfl
  | cons a l ih =>
    rw [List.length_cons, List.range_succ_eq_map, List.filterMap_cons]
    simp only [List.getElem?_cons_zero]
    rw [List.filterMap_map]
    simp only [Function.comp_def, List.getElem?_cons_succ, ih]

theorem isel_perm {α : Type} (l : List α) {idx : List ℕ} (h : idx.Perm (List.range l.length)) :
    (isel l idx).Perm l := by
  unfold isel
  refine (h.filterMap _).trans ?_
  rw [filterMap_range]

theorem isel_keys {α : Type} (l : List α) (key : α → ℤ) (S : List (ℤ × ℕ))
    (h : ∀ p ∈ S, ∃ x, l[p.2]? = some x ∧ key x = p.1) :
    (isel l (S.map Prod.snd)).map key = S.map Prod.fst := by
  unfold isel
  induction S with
  | nil => rfl
  | cons p S ih =>
    obtain ⟨x, hx, hk⟩ := h p (by simp)
    rw [List.map_cons, List.filterMap_cons_some (by exact hx), List.map_cons, List.map_cons, hk,
      ih fun q hq => h q (by simp [hq])]

theorem isel_sorted {α : Type} (l : List α) (key : α → ℤ) :
    ((isel l (argsort (l.map key))).map key).Pairwise (· ≤ ·) := by
  unfold argsort
  rw [isel_keys]
  · have := List.pairwise_insertionSort (fun a b : ℤ × ℕ => a.1 ≤ b.1) (l.map key).zipIdx
    exact List.pairwise_map.2 this
  · intro p hp
    rw [List.mem_insertionSort] at hp
    have := List.mk_mem_zipIdx_iff_getElem?.1 (show (p.1, p.2) ∈ (l.map key).zipIdx from hp)
    rw [List.getElem?_map] at this
    cases hx : l[p.2]? with
    | none => rw [hx] at this; simp at this
    | some x =>
      rw [hx] at this
      exact ⟨x, rfl, by simpa using this⟩

/-! ### Batches -/

theorem batches_flatten (size fuel : ℕ) (l : List ℚ) (hs : 0 < size) (hf : l.length ≤ fuel) :
    (batches size fuel l).flatten = l := by
  induction fuel generalizing l with
  | zero =>
    have : l = [] := List.length_eq_zero_iff.1 (by omega)
    subst this
    rfl
  | succ fuel ih =>
    simp only [batches]
    by_cases h : l = []
    · rw [if_pos h, h]
      rfl
    · have hl := List.length_pos_iff.2 h
      rw [if_neg h, List.flatten_cons, ih _ (by rw [List.length_drop]; omega), List.take_append_drop]

end Verif.Weekly
