import Mathlib.Tactic
import Mathlib.Data.List.GetD
import Verif.Model.Interval
import Verif.Spec.Interval

/-!
# C62: credible intervals
-/

namespace Verif.Interval.Props

open Verif.Interval.Spec

/-! ## Order statistics -/

/-- The draw of rank `i` in increasing order (the last one for a larger `i`). -/
def os (x : List ℚ) (i : ℕ) : ℚ := (sorted x).getD (min i (x.length - 1)) 0

theorem sorted_length (x : List ℚ) : (sorted x).length = x.length := List.length_insertionSort _ _

theorem sorted_perm (x : List ℚ) : (sorted x).Perm x := List.perm_insertionSort _ _

theorem sorted_pairwise (x : List ℚ) : (sorted x).Pairwise (· ≤ ·) :=
  List.pairwise_insertionSort _ _

theorem sorted_mono (x : List ℚ) {i j : ℕ} (hij : i ≤ j) (hj : j < x.length) :
    (sorted x).getD i 0 ≤ (sorted x).getD j 0 := by
  have hj' : j < (sorted x).length := by rw [sorted_length]; exact hj
  have hi' : i < (sorted x).length := by omega
  rw [List.getD_eq_getElem _ _ hi', List.getD_eq_getElem _ _ hj']
  rcases Nat.eq_or_lt_of_le hij with h | h
  · subst h; exact le_refl _
  · exact List.pairwise_iff_getElem.1 (sorted_pairwise x) i j hi' hj' h

theorem os_mono (x : List ℚ) (hx : x ≠ []) {i j : ℕ} (hij : i ≤ j) : os x i ≤ os x j := by
  have : 0 < x.length := List.length_pos_iff.2 hx
  exact sorted_mono x (by omega) (by omega)

theorem os_mem (x : List ℚ) (hx : x ≠ []) (i : ℕ) : os x i ∈ x := by
  have : 0 < x.length := List.length_pos_iff.2 hx
  have h : min i (x.length - 1) < (sorted x).length := by rw [sorted_length]; omega
  rw [← (sorted_perm x).mem_iff]
  unfold os
  rw [List.getD_eq_getElem _ _ h]
  exact List.getElem_mem h

/-- The value interpolated at the virtual index `h`. -/
def interp (x : List ℚ) (h : ℚ) : ℚ :=
  os x ⌊h⌋.toNat + (h - ⌊h⌋.toNat) * (os x (⌊h⌋.toNat + 1) - os x ⌊h⌋.toNat)

theorem floor_toNat {h : ℚ} (h0 : 0 ≤ h) :
    ((⌊h⌋.toNat : ℕ) : ℚ) ≤ h ∧ h < (⌊h⌋.toNat : ℕ) + 1 := by
  have hf : 0 ≤ ⌊h⌋ := Int.floor_nonneg.2 h0
  have hc : (((⌊h⌋.toNat : ℕ) : ℤ) : ℚ) = (⌊h⌋ : ℚ) := by rw [Int.toNat_of_nonneg hf]
  have h1 := Int.floor_le h
  have h2 := Int.lt_floor_add_one h
  push_cast at hc
  rw [hc]
  exact ⟨h1, h2⟩

theorem virtual_bounds {x : List ℚ} (hx : x ≠ []) {q : ℚ} (h0 : 0 ≤ q) (h1 : q ≤ 1) :
    0 ≤ ((x.length : ℚ) - 1) * q ∧ ((x.length : ℚ) - 1) * q ≤ (x.length : ℚ) - 1 := by
  have : 0 < x.length := List.length_pos_iff.2 hx
  have hn : (1 : ℚ) ≤ x.length := by exact_mod_cast this
  constructor
  · exact mul_nonneg (by linarith) h0
  · nlinarith

theorem quantileFin_eq {x : List ℚ} (hx : x ≠ []) {q : ℚ} (h0 : 0 ≤ q) (h1 : q ≤ 1) :
    quantileFin x q = interp x (((x.length : ℚ) - 1) * q) := by
  have hl : 0 < x.length := List.length_pos_iff.2 hx
  obtain ⟨hb0, hb1⟩ := virtual_bounds hx h0 h1
  have hj := (floor_toNat hb0).1
  have hj' : ⌊((x.length : ℚ) - 1) * q⌋.toNat ≤ x.length - 1 := by
    have : ((⌊((x.length : ℚ) - 1) * q⌋.toNat : ℕ) : ℚ) ≤ ((x.length - 1 : ℕ) : ℚ) := by
      rw [Nat.cast_sub (by omega)]; push_cast; linarith
    exact_mod_cast this
  unfold quantileFin interp os
  simp only
  rw [Nat.min_eq_left hj']

theorem interp_mono {x : List ℚ} (hx : x ≠ []) {h h' : ℚ} (h0 : 0 ≤ h) (hh : h ≤ h') :
    interp x h ≤ interp x h' := by
  have h0' : 0 ≤ h' := le_trans h0 hh
  obtain ⟨a1, a2⟩ := floor_toNat h0
  obtain ⟨b1, b2⟩ := floor_toNat h0'
  have hj : ⌊h⌋.toNat ≤ ⌊h'⌋.toNat := Int.toNat_le_toNat (Int.floor_le_floor hh)
  have m1 := os_mono x hx (Nat.le_succ ⌊h⌋.toNat)
  have m2 := os_mono x hx (Nat.le_succ ⌊h'⌋.toNat)
  simp only [Nat.succ_eq_add_one] at m1 m2
  unfold interp
  rcases Nat.eq_or_lt_of_le hj with e | e
  · rw [← e]
    nlinarith
  · have m3 := os_mono x hx (show ⌊h⌋.toNat + 1 ≤ ⌊h'⌋.toNat from e)
    nlinarith

theorem interp_nat {x : List ℚ} (k : ℕ) : interp x (k : ℚ) = os x k := by
  unfold interp
  simp

theorem interp_le_os {x : List ℚ} (hx : x ≠ []) {h : ℚ} (h0 : 0 ≤ h) {k : ℕ} (hk : h ≤ k) :
    interp x h ≤ os x k := by
  rw [← interp_nat]; exact interp_mono hx h0 hk

theorem os_le_interp {x : List ℚ} (hx : x ≠ []) {h : ℚ} {k : ℕ} (hk : (k : ℚ) ≤ h) :
    os x k ≤ interp x h := by
  rw [← interp_nat]; exact interp_mono hx (Nat.cast_nonneg k) hk

/-! ## Counting -/

theorem mem_take_le {x : List ℚ} {k : ℕ} {a : ℚ} (ha : a ∈ (sorted x).take (k + 1)) :
    a ≤ os x k := by
  obtain ⟨i, hi, rfl⟩ := List.getElem_of_mem ha
  rw [List.length_take, sorted_length] at hi
  rw [List.getElem_take]
  unfold os
  rw [← List.getD_eq_getElem _ 0]
  exact sorted_mono x (by omega) (by omega)

theorem mem_drop_ge {x : List ℚ} {k : ℕ} (hk : k < x.length) {a : ℚ}
    (ha : a ∈ (sorted x).drop k) : os x k ≤ a := by
  obtain ⟨i, hi, rfl⟩ := List.getElem_of_mem ha
  rw [List.length_drop, sorted_length] at hi
  rw [List.getElem_drop]
  unfold os
  rw [← List.getD_eq_getElem _ 0]
  exact sorted_mono x (by omega) (by omega)

theorem countP_split (x : List ℚ) (k : ℕ) (p : ℚ → Bool) :
    x.countP p = ((sorted x).take k).countP p + ((sorted x).drop k).countP p := by
  rw [← (sorted_perm x).countP_eq p, ← List.countP_append, List.take_append_drop]

theorem below_le {x : List ℚ} {k : ℕ} (hk : k < x.length) {v : ℚ} (hv : v ≤ os x k) :
    below x v ≤ k := by
  unfold below
  rw [countP_split x k]
  have h1 : ((sorted x).drop k).countP (fun a => decide (a < v)) = 0 := by
    rw [List.countP_eq_zero]
    intro a ha
    have := mem_drop_ge hk ha
    simp only [decide_eq_true_eq, not_lt]
    exact le_trans hv this
  have h2 : ((sorted x).take k).countP (fun a => decide (a < v)) ≤ k :=
    le_trans List.countP_le_length (by rw [List.length_take]; omega)
  omega

theorem above_le {x : List ℚ} {k : ℕ} {v : ℚ} (hv : os x k ≤ v) :
    above x v ≤ x.length - 1 - k := by
  unfold above
  rw [countP_split x (k + 1)]
  have h1 : ((sorted x).take (k + 1)).countP (fun a => decide (v < a)) = 0 := by
    rw [List.countP_eq_zero]
    intro a ha
    have := mem_take_le ha
    simp only [decide_eq_true_eq, not_lt]
    exact le_trans this hv
  have h2 : ((sorted x).drop (k + 1)).countP (fun a => decide (v < a)) ≤ x.length - 1 - k :=
    le_trans List.countP_le_length (by rw [List.length_drop, sorted_length]; omega)
  omega

theorem below_add (x : List ℚ) (v : ℚ) :
    below x v + x.countP (fun a => decide (v ≤ a)) = x.length := by
  unfold below
  induction x with
  | nil => rfl
  | cons a l ih =>
    simp only [List.countP_cons, List.length_cons, decide_eq_true_eq]
    by_cases h : a < v
    · have h' : ¬ v ≤ a := not_le.2 h
      simp only [h, h', if_true, if_false]; omega
    · have h' : v ≤ a := not_lt.1 h
      simp only [h, h', if_true, if_false]; omega

theorem above_add (x : List ℚ) (v : ℚ) :
    above x v + x.countP (fun a => decide (a ≤ v)) = x.length := by
  unfold above
  induction x with
  | nil => rfl
  | cons a l ih =>
    simp only [List.countP_cons, List.length_cons, decide_eq_true_eq]
    by_cases h : v < a
    · have h' : ¬ a ≤ v := not_le.2 h
      simp only [h, h', if_true, if_false]; omega
    · have h' : a ≤ v := not_lt.1 h
      simp only [h, h', if_true, if_false]; omega

theorem inside_add (x : List ℚ) {lo hi : ℚ} :
    x.length ≤ inside x lo hi + below x lo + above x hi := by
  unfold inside below above
  induction x with
  | nil => exact Nat.le_refl _
  | cons a l ih =>
    simp only [List.countP_cons, List.length_cons, decide_eq_true_eq]
    by_cases h1 : a < lo
    · simp only [h1, if_true]; omega
    · by_cases h2 : hi < a
      · simp only [h2, if_true]; omega
      · have h3 : lo ≤ a ∧ a ≤ hi := ⟨not_lt.1 h1, not_lt.1 h2⟩
        rw [if_pos h3]; omega

/-! ## The reductions -/

theorem finite_map (l : List ℚ) : finite (l.map some) = some l := by
  induction l with
  | nil => rfl
  | cons a l ih => simp only [List.map_cons, finite, ih, Option.map_some]

theorem finite_none {l : List Num} (h : none ∈ l) : finite l = none := by
  induction l with
  | nil => cases h
  | cons a l ih =>
    cases a with
    | none => rfl
    | some a =>
      have : none ∈ l := by
        rcases List.mem_cons.1 h with h | h
        · cases h
        · exact h
      simp only [finite, ih this, Option.map_none]

theorem reduce_map (f : List ℚ → ℚ) {l : List ℚ} (hl : l ≠ []) :
    reduce f (l.map some) = some (f l) := by
  unfold reduce
  rw [finite_map]
  cases l with
  | nil => exact absurd rfl hl
  | cons a l => rfl

theorem array_flatten (d : Draws) : d.array.flatten = d.all.map some := by
  unfold Draws.array Draws.all
  rw [List.map_flatten]

/-- **C62.** A confidence level is accepted exactly when it lies between -1 and 1, whatever the
draws. -/
theorem accepted_iff (data : List (List Num)) (c : ℚ) (im : Bool) :
    (∃ r, central data c im = .ok r) ↔ -1 ≤ c ∧ c ≤ 1 := by
  unfold central quantile
  by_cases h1 : (1 - c) / 2 < 0 ∨ 1 < (1 - c) / 2
  · rw [if_pos h1]
    constructor
    · rintro ⟨r, hr⟩; cases hr
    · rintro ⟨ha, hb⟩
      rcases h1 with h | h <;> linarith
  · rw [if_neg h1]
    simp only
    have h1' := not_or.1 h1
    by_cases h2 : (1 + c) / 2 < 0 ∨ 1 < (1 + c) / 2
    · rw [if_pos h2]
      constructor
      · rintro ⟨r, hr⟩; cases hr
      · rintro ⟨ha, hb⟩
        rcases h2 with h | h <;> linarith
    · rw [if_neg h2]
      have h2' := not_or.1 h2
      constructor
      · intro _
        constructor
        · linarith [not_lt.1 h2'.1]
        · linarith [not_lt.1 h1'.1]
      · intro _
        cases im
        · exact ⟨_, rfl⟩
        · exact ⟨_, rfl⟩

theorem central_eq (d : Draws) {c : ℚ} (h0 : -1 ≤ c) (h1 : c ≤ 1) (im : Bool) :
    central d.array c im = .ok (some (meanFin d.all) ::
      ((if im then [some (medianFin d.all)] else []) ++
        [some (quantileFin d.all ((1 - c) / 2)), some (quantileFin d.all ((1 + c) / 2))])) := by
  have ha : ¬ ((1 - c) / 2 < 0 ∨ 1 < (1 - c) / 2) := by
    rintro (h | h) <;> linarith
  have hb : ¬ ((1 + c) / 2 < 0 ∨ 1 < (1 + c) / 2) := by
    rintro (h | h) <;> linarith
  unfold central quantile
  rw [if_neg ha, if_neg hb, array_flatten]
  have hx := d.some_draw
  change d.all ≠ [] at hx
  simp only [reduce_map _ hx]
  cases im <;> rfl

/-- **C62.** For finite draws the result has a mean, optionally a median, and two interval ends, in
this order and all of them numbers. -/
theorem result_finite (d : Draws) {c : ℚ} (h0 : -1 ≤ c) (h1 : c ≤ 1) :
    (∃ m lo hi, central d.array c false = .ok [some m, some lo, some hi]) ∧
    ∃ m med lo hi, central d.array c true = .ok [some m, some med, some lo, some hi] := by
  constructor
  · rw [central_eq d h0 h1]; exact ⟨_, _, _, rfl⟩
  · rw [central_eq d h0 h1]; exact ⟨_, _, _, _, rfl⟩

/-- **C62.** Asking for the median does not change the mean and the interval. -/
theorem median_is_extra (d : Draws) {c : ℚ} {m med lo hi : ℚ}
    (h : central d.array c true = .ok [some m, some med, some lo, some hi]) :
    central d.array c false = .ok [some m, some lo, some hi] := by
  obtain ⟨h0, h1⟩ := (accepted_iff _ _ _).1 ⟨_, h⟩
  rw [central_eq d h0 h1] at h ⊢
  simp only [if_true, List.cons_append, List.nil_append, Except.ok.injEq, List.cons.injEq,
    Option.some.injEq, and_true] at h
  obtain ⟨e1, e2, e3, e4⟩ := h
  rw [e1, e3, e4]
  rfl

/-- **C62.** The first number is the average of all draws of all chains. -/
theorem mean_is_average (d : Draws) {c : ℚ} {m lo hi : ℚ}
    (h : central d.array c false = .ok [some m, some lo, some hi]) :
    m * d.all.length = d.all.sum := by
  obtain ⟨h0, h1⟩ := (accepted_iff _ _ _).1 ⟨_, h⟩
  rw [central_eq d h0 h1] at h
  simp only [Bool.false_eq_true, if_false, List.nil_append, Except.ok.injEq, List.cons.injEq,
    Option.some.injEq, and_true] at h
  obtain ⟨e1, _, _⟩ := h
  have hl : 0 < d.all.length := List.length_pos_iff.2 d.some_draw
  have hl' : (d.all.length : ℚ) ≠ 0 := by exact_mod_cast hl.ne'
  rw [← e1]
  unfold meanFin
  field_simp

theorem ends (d : Draws) {c : ℚ} {m lo hi : ℚ}
    (h : central d.array c false = .ok [some m, some lo, some hi]) :
    -1 ≤ c ∧ c ≤ 1 ∧ lo = interp d.all (((d.all.length : ℚ) - 1) * ((1 - c) / 2)) ∧
      hi = interp d.all (((d.all.length : ℚ) - 1) * ((1 + c) / 2)) := by
  obtain ⟨h0, h1⟩ := (accepted_iff _ _ _).1 ⟨_, h⟩
  rw [central_eq d h0 h1] at h
  simp only [Bool.false_eq_true, if_false, List.nil_append, Except.ok.injEq, List.cons.injEq,
    Option.some.injEq, and_true] at h
  obtain ⟨_, e2, e3⟩ := h
  refine ⟨h0, h1, ?_, ?_⟩
  · rw [← e2]
    exact quantileFin_eq d.some_draw (by linarith) (by linarith)
  · rw [← e3]
    exact quantileFin_eq d.some_draw (by linarith) (by linarith)

theorem medianFin_eq {x : List ℚ} (hx : x ≠ []) :
    medianFin x = interp x (((x.length : ℚ) - 1) * (1 / 2)) := by
  have hl : 0 < x.length := List.length_pos_iff.2 hx
  unfold medianFin
  by_cases ho : x.length % 2 = 1
  · rw [if_pos ho]
    have e : ((x.length : ℚ) - 1) * (1 / 2) = ((x.length / 2 : ℕ) : ℚ) := by
      have : x.length = 2 * (x.length / 2) + 1 := by omega
      have h2 : (x.length : ℚ) = 2 * ((x.length / 2 : ℕ) : ℚ) + 1 := by exact_mod_cast this
      linarith
    rw [e, interp_nat]
    unfold os
    rw [Nat.min_eq_left (by omega)]
  · rw [if_neg ho]
    obtain ⟨k, hk⟩ : ∃ k, x.length = 2 * (k + 1) := ⟨x.length / 2 - 1, by omega⟩
    have e : ((x.length : ℚ) - 1) * (1 / 2) = (k : ℚ) + 1 / 2 := by
      rw [hk]; push_cast; ring
    have hf : ⌊(k : ℚ) + 1 / 2⌋.toNat = k := by
      have : ⌊(k : ℚ) + 1 / 2⌋ = (k : ℤ) := by
        rw [Int.floor_eq_iff]; push_cast; constructor <;> linarith
      rw [this]; rfl
    rw [e]
    unfold interp os
    rw [hf, Nat.min_eq_left (by omega), Nat.min_eq_left (by omega)]
    have e1 : x.length / 2 - 1 = k := by omega
    have e2 : x.length / 2 = k + 1 := by omega
    rw [e1, e2]
    ring

/-- **C62.** For a level between 0 and 1 the interval contains the median and lies between the
smallest and the largest draw. -/
theorem interval_ordered (d : Draws) {c : ℚ} (hc : 0 ≤ c) {m med lo hi : ℚ}
    (h : central d.array c true = .ok [some m, some med, some lo, some hi]) :
    lo ≤ med ∧ med ≤ hi ∧ (∃ a ∈ d.all, a ≤ lo) ∧ ∃ b ∈ d.all, hi ≤ b := by
  obtain ⟨h0, h1, e1, e2⟩ := ends d (median_is_extra d h)
  have hmed : med = medianFin d.all := by
    rw [central_eq d h0 h1] at h
    simp only [if_true, List.cons_append, List.nil_append, Except.ok.injEq, List.cons.injEq,
      Option.some.injEq, and_true] at h
    exact h.2.1.symm
  have hx := d.some_draw
  change d.all ≠ [] at hx
  rw [medianFin_eq hx] at hmed
  have hn : (1 : ℚ) ≤ d.all.length := by
    exact_mod_cast List.length_pos_iff.2 hx
  obtain ⟨b0, b1⟩ := virtual_bounds hx (show 0 ≤ (1 - c) / 2 by linarith) (by linarith)
  obtain ⟨b2, b3⟩ := virtual_bounds hx (show 0 ≤ (1 + c) / 2 by linarith) (by linarith)
  have hn' : ((d.all.length - 1 : ℕ) : ℚ) = (d.all.length : ℚ) - 1 := by
    rw [Nat.cast_sub (List.length_pos_iff.2 hx)]; push_cast; rfl
  refine ⟨?_, ?_, ⟨os d.all 0, os_mem _ hx _, ?_⟩, os d.all (d.all.length - 1), os_mem _ hx _, ?_⟩
  · rw [e1, hmed]
    exact interp_mono hx b0 (by nlinarith)
  · rw [e2, hmed]
    exact interp_mono hx (by nlinarith) (by nlinarith)
  · rw [e1]; exact os_le_interp hx (by simpa using b0)
  · rw [e2]; exact interp_le_os hx b2 (by rw [hn']; exact b3)

/-- **C62.** A higher level gives a wider interval: intervals are nested. -/
theorem nested (d : Draws) {c c' : ℚ} (hc : c ≤ c') {m lo hi m' lo' hi' : ℚ}
    (h : central d.array c false = .ok [some m, some lo, some hi])
    (h' : central d.array c' false = .ok [some m', some lo', some hi']) :
    lo' ≤ lo ∧ hi ≤ hi' ∧ m = m' := by
  have e := mean_is_average d h
  have e' := mean_is_average d h'
  obtain ⟨h0, h1, e1, e2⟩ := ends d h
  obtain ⟨h0', h1', e1', e2'⟩ := ends d h'
  have hx := d.some_draw
  change d.all ≠ [] at hx
  have hn : (1 : ℚ) ≤ d.all.length := by exact_mod_cast List.length_pos_iff.2 hx
  obtain ⟨b0, _⟩ := virtual_bounds hx (show 0 ≤ (1 - c') / 2 by linarith) (by linarith)
  obtain ⟨b2, _⟩ := virtual_bounds hx (show 0 ≤ (1 + c) / 2 by linarith) (by linarith)
  refine ⟨?_, ?_, ?_⟩
  · rw [e1, e1']; exact interp_mono hx b0 (by nlinarith)
  · rw [e2, e2']; exact interp_mono hx b2 (by nlinarith)
  · have hl' : (d.all.length : ℚ) ≠ 0 := by linarith
    exact mul_right_cancel₀ hl' (e.trans e'.symm)

/-- The position of the lower end and of the upper end add up to the last position. -/
theorem ranks (d : Draws) (c : ℚ) :
    ((d.all.length : ℚ) - 1) * ((1 + c) / 2) =
      ((d.all.length : ℚ) - 1) - ((d.all.length : ℚ) - 1) * ((1 - c) / 2) := by ring

/-- **C62.** Equal tails, from above: fewer than `(n-1)(1-c)/2 + 1` draws are below the interval, and
fewer than that are above it. -/
theorem tails_small (d : Draws) {c : ℚ} {m lo hi : ℚ}
    (h : central d.array c false = .ok [some m, some lo, some hi]) :
    (below d.all lo : ℚ) < ((d.all.length : ℚ) - 1) * ((1 - c) / 2) + 1 ∧
      (above d.all hi : ℚ) < ((d.all.length : ℚ) - 1) * ((1 - c) / 2) + 1 := by
  obtain ⟨h0, h1, e1, e2⟩ := ends d h
  have hx := d.some_draw
  change d.all ≠ [] at hx
  have hl := List.length_pos_iff.2 hx
  obtain ⟨b0, b1⟩ := virtual_bounds hx (show 0 ≤ (1 - c) / 2 by linarith) (by linarith)
  obtain ⟨b2, b3⟩ := virtual_bounds hx (show 0 ≤ (1 + c) / 2 by linarith) (by linarith)
  have hn' : ((d.all.length - 1 : ℕ) : ℚ) = (d.all.length : ℚ) - 1 := by
    rw [Nat.cast_sub hl]; push_cast; rfl
  constructor
  · have hk : ((⌈((d.all.length : ℚ) - 1) * ((1 - c) / 2)⌉₊ : ℕ) : ℚ) <
        ((d.all.length : ℚ) - 1) * ((1 - c) / 2) + 1 := Nat.ceil_lt_add_one b0
    have hk2 : ⌈((d.all.length : ℚ) - 1) * ((1 - c) / 2)⌉₊ ≤ d.all.length - 1 := by
      rw [Nat.ceil_le, hn']; exact b1
    have := below_le (x := d.all) (k := ⌈((d.all.length : ℚ) - 1) * ((1 - c) / 2)⌉₊) (by omega)
      (v := lo) (by rw [e1]; exact interp_le_os hx b0 (Nat.le_ceil _))
    exact lt_of_le_of_lt (by exact_mod_cast this) hk
  · have hk := Nat.lt_floor_add_one (((d.all.length : ℚ) - 1) * ((1 + c) / 2))
    have hk2 : ((⌊((d.all.length : ℚ) - 1) * ((1 + c) / 2)⌋₊ : ℕ) : ℚ) ≤
      ((d.all.length : ℚ) - 1) * ((1 + c) / 2) := Nat.floor_le b2
    have hk3 : ⌊((d.all.length : ℚ) - 1) * ((1 + c) / 2)⌋₊ ≤ d.all.length - 1 := by
      have : ((⌊((d.all.length : ℚ) - 1) * ((1 + c) / 2)⌋₊ : ℕ) : ℚ) ≤
        ((d.all.length - 1 : ℕ) : ℚ) := by rw [hn']; linarith
      exact_mod_cast this
    have := above_le (x := d.all) (k := ⌊((d.all.length : ℚ) - 1) * ((1 + c) / 2)⌋₊) (v := hi)
      (by rw [e2]; exact os_le_interp hx hk2)
    have h4 : (above d.all hi : ℚ) ≤
        ((d.all.length - 1 - ⌊((d.all.length : ℚ) - 1) * ((1 + c) / 2)⌋₊ : ℕ) : ℚ) := by
      exact_mod_cast this
    rw [Nat.cast_sub hk3, hn'] at h4
    rw [ranks] at hk h4
    linarith

/-- **C62.** Equal tails, from below: more than `(n-1)(1-c)/2` draws are at or below the lower end,
and more than that are at or above the upper end, so the interval is no wider than the level asks
for. -/
theorem tails_large (d : Draws) {c : ℚ} {m lo hi : ℚ}
    (h : central d.array c false = .ok [some m, some lo, some hi]) :
    ((d.all.length : ℚ) - 1) * ((1 - c) / 2) < (d.all.countP (fun a => decide (a ≤ lo)) : ℚ) ∧
      ((d.all.length : ℚ) - 1) * ((1 - c) / 2) <
        (d.all.countP (fun a => decide (hi ≤ a)) : ℚ) := by
  obtain ⟨h0, h1, e1, e2⟩ := ends d h
  have hx := d.some_draw
  change d.all ≠ [] at hx
  have hl := List.length_pos_iff.2 hx
  obtain ⟨b0, b1⟩ := virtual_bounds hx (show 0 ≤ (1 - c) / 2 by linarith) (by linarith)
  obtain ⟨b2, b3⟩ := virtual_bounds hx (show 0 ≤ (1 + c) / 2 by linarith) (by linarith)
  have hn' : ((d.all.length - 1 : ℕ) : ℚ) = (d.all.length : ℚ) - 1 := by
    rw [Nat.cast_sub hl]; push_cast; rfl
  constructor
  · have hk := Nat.lt_floor_add_one (((d.all.length : ℚ) - 1) * ((1 - c) / 2))
    have hk2 : ((⌊((d.all.length : ℚ) - 1) * ((1 - c) / 2)⌋₊ : ℕ) : ℚ) ≤
      ((d.all.length : ℚ) - 1) * ((1 - c) / 2) := Nat.floor_le b0
    have hk3 : ⌊((d.all.length : ℚ) - 1) * ((1 - c) / 2)⌋₊ ≤ d.all.length - 1 := by
      have : ((⌊((d.all.length : ℚ) - 1) * ((1 - c) / 2)⌋₊ : ℕ) : ℚ) ≤
        ((d.all.length - 1 : ℕ) : ℚ) := by rw [hn']; linarith
      exact_mod_cast this
    have ha := above_le (x := d.all) (k := ⌊((d.all.length : ℚ) - 1) * ((1 - c) / 2)⌋₊) (v := lo)
      (by rw [e1]; exact os_le_interp hx hk2)
    have hs := above_add d.all lo
    have : ⌊((d.all.length : ℚ) - 1) * ((1 - c) / 2)⌋₊ + 1 ≤
        d.all.countP (fun a => decide (a ≤ lo)) := by omega
    exact lt_of_lt_of_le hk (by exact_mod_cast this)
  · have hk : ((⌈((d.all.length : ℚ) - 1) * ((1 + c) / 2)⌉₊ : ℕ) : ℚ) <
        ((d.all.length : ℚ) - 1) * ((1 + c) / 2) + 1 := Nat.ceil_lt_add_one b2
    have hk2 : ⌈((d.all.length : ℚ) - 1) * ((1 + c) / 2)⌉₊ ≤ d.all.length - 1 := by
      rw [Nat.ceil_le, hn']; exact b3
    have ha := below_le (x := d.all) (k := ⌈((d.all.length : ℚ) - 1) * ((1 + c) / 2)⌉₊) (by omega)
      (v := hi) (by rw [e2]; exact interp_le_os hx b2 (Nat.le_ceil _))
    have hs := below_add d.all hi
    have h5 : d.all.length ≤ ⌈((d.all.length : ℚ) - 1) * ((1 + c) / 2)⌉₊ +
        d.all.countP (fun a => decide (hi ≤ a)) := by omega
    have h6 : (d.all.length : ℚ) ≤ (⌈((d.all.length : ℚ) - 1) * ((1 + c) / 2)⌉₊ : ℕ) +
        (d.all.countP (fun a => decide (hi ≤ a)) : ℚ) := by exact_mod_cast h5
    rw [ranks] at hk h6
    linarith

/-- **C62.** Coverage: more than `(n-1)c - 1` of the `n` draws lie in the interval. -/
theorem coverage (d : Draws) {c : ℚ} {m lo hi : ℚ}
    (h : central d.array c false = .ok [some m, some lo, some hi]) :
    ((d.all.length : ℚ) - 1) * c - 1 < (inside d.all lo hi : ℚ) := by
  obtain ⟨t1, t2⟩ := tails_small d h
  have := inside_add d.all (lo := lo) (hi := hi)
  have h5 : (d.all.length : ℚ) ≤ (inside d.all lo hi : ℚ) + below d.all lo + above d.all hi := by
    exact_mod_cast this
  linarith

/-- **C62.** If `(n-1)(1-c)/2` is a whole number `k`, the lower end is the draw of rank `k` and the
upper end the draw of rank `n-1-k`. -/
theorem exact_ranks (d : Draws) {c : ℚ} {m lo hi : ℚ}
    (h : central d.array c false = .ok [some m, some lo, some hi]) {k : ℕ}
    (hk : ((d.all.length : ℚ) - 1) * ((1 - c) / 2) = k) :
    HasRank d.all k lo ∧ HasRank d.all (d.all.length - 1 - k) hi := by
  obtain ⟨h0, h1, e1, e2⟩ := ends d h
  have hx := d.some_draw
  change d.all ≠ [] at hx
  have hl := List.length_pos_iff.2 hx
  obtain ⟨b0, b1⟩ := virtual_bounds hx (show 0 ≤ (1 - c) / 2 by linarith) (by linarith)
  have hn' : ((d.all.length - 1 : ℕ) : ℚ) = (d.all.length : ℚ) - 1 := by
    rw [Nat.cast_sub hl]; push_cast; rfl
  have hk' : k ≤ d.all.length - 1 := by
    have : (k : ℚ) ≤ ((d.all.length - 1 : ℕ) : ℚ) := by rw [hn', ← hk]; exact b1
    exact_mod_cast this
  rw [hk, interp_nat] at e1
  have e3 : ((d.all.length : ℚ) - 1) * ((1 + c) / 2) = ((d.all.length - 1 - k : ℕ) : ℚ) := by
    rw [ranks, hk, Nat.cast_sub hk', hn']
  rw [e3, interp_nat] at e2
  constructor
  · exact ⟨e1 ▸ os_mem _ hx _, below_le (by omega) (by rw [e1]), above_le (by rw [e1])⟩
  · exact ⟨e2 ▸ os_mem _ hx _, below_le (by omega) (by rw [e2]), above_le (by rw [e2])⟩

/-- **C62.** Between two such levels the ends move linearly. -/
theorem linear_between (d : Draws) {c c₁ c₂ t : ℚ} {k : ℕ} (ht0 : 0 ≤ t) (ht1 : t ≤ 1)
    (hk : ((d.all.length : ℚ) - 1) * ((1 - c₁) / 2) = k)
    (hk' : ((d.all.length : ℚ) - 1) * ((1 - c₂) / 2) = (k : ℚ) + 1)
    (hc : c = (1 - t) * c₁ + t * c₂)
    {m lo hi m₁ lo₁ hi₁ m₂ lo₂ hi₂ : ℚ}
    (h : central d.array c false = .ok [some m, some lo, some hi])
    (h₁ : central d.array c₁ false = .ok [some m₁, some lo₁, some hi₁])
    (h₂ : central d.array c₂ false = .ok [some m₂, some lo₂, some hi₂]) :
    lo = (1 - t) * lo₁ + t * lo₂ ∧ hi = (1 - t) * hi₁ + t * hi₂ := by
  obtain ⟨-, -, e1, e2⟩ := ends d h
  obtain ⟨-, -, e3, e4⟩ := ends d h₁
  obtain ⟨h0, h1, e5, e6⟩ := ends d h₂
  have hx := d.some_draw
  change d.all ≠ [] at hx
  have hl := List.length_pos_iff.2 hx
  have hn' : ((d.all.length - 1 : ℕ) : ℚ) = (d.all.length : ℚ) - 1 := by
    rw [Nat.cast_sub hl]; push_cast; rfl
  obtain ⟨b0, b1⟩ := virtual_bounds hx (show 0 ≤ (1 - c₂) / 2 by linarith) (by linarith)
  have hkn : k + 1 ≤ d.all.length - 1 := by
    have : ((k + 1 : ℕ) : ℚ) ≤ ((d.all.length - 1 : ℕ) : ℚ) := by
      rw [hn']; push_cast; rw [← hk']; exact b1
    exact_mod_cast this
  have key : ∀ (j : ℕ) (s : ℚ), 0 ≤ s → s ≤ 1 →
      interp d.all ((j : ℚ) + s) = (1 - s) * os d.all j + s * os d.all (j + 1) := by
    intro j s hs0 hs1
    rcases eq_or_lt_of_le hs1 with e | e
    · subst e
      have : ((j : ℚ) + 1) = ((j + 1 : ℕ) : ℚ) := by push_cast; rfl
      rw [this, interp_nat]; ring
    · have hf : ⌊(j : ℚ) + s⌋.toNat = j := by
        have : ⌊(j : ℚ) + s⌋ = (j : ℤ) := by
          rw [Int.floor_eq_iff]; push_cast; constructor <;> linarith
        rw [this]; rfl
      unfold interp
      rw [hf]; ring
  constructor
  · have p : ((d.all.length : ℚ) - 1) * ((1 - c) / 2) = (k : ℚ) + t := by
      rw [hc]
      linear_combination (1 - t) * hk + t * hk'
    rw [e1, p, key k t ht0 ht1, e3, hk, interp_nat, e5, hk']
    have : ((k : ℚ) + 1) = ((k + 1 : ℕ) : ℚ) := by push_cast; rfl
    rw [this, interp_nat]
  · obtain ⟨i, hi⟩ : ∃ i, d.all.length - 1 = k + 1 + i := ⟨d.all.length - 1 - (k + 1), by omega⟩
    have hi' : (d.all.length : ℚ) - 1 = (k : ℚ) + 1 + i := by rw [← hn', hi]; push_cast; ring
    have p : ((d.all.length : ℚ) - 1) * ((1 + c) / 2) = (i : ℚ) + (1 - t) := by
      rw [ranks, hc]
      linear_combination hi' - (1 - t) * hk - t * hk'
    have p1 : ((d.all.length : ℚ) - 1) * ((1 + c₁) / 2) = ((i + 1 : ℕ) : ℚ) := by
      rw [ranks, hk, hi']; push_cast; ring
    have p2 : ((d.all.length : ℚ) - 1) * ((1 + c₂) / 2) = (i : ℚ) := by
      rw [ranks, hk', hi']; ring
    rw [e2, p, key i (1 - t) (by linarith) (by linarith), e4, p1, interp_nat, e6, p2, interp_nat]
    ring

/-- **C62.** The median splits the draws: at most half of them are smaller and at most half are
larger; it is the interval of level 0. -/
theorem median_splits (d : Draws) {c : ℚ} {m med lo hi : ℚ}
    (h : central d.array c true = .ok [some m, some med, some lo, some hi]) :
    2 * below d.all med ≤ d.all.length ∧ 2 * above d.all med ≤ d.all.length ∧
      central d.array 0 false = .ok [some m, some med, some med] := by
  obtain ⟨h0, h1, e1, e2⟩ := ends d (median_is_extra d h)
  have hx := d.some_draw
  change d.all ≠ [] at hx
  have hl := List.length_pos_iff.2 hx
  have hn' : ((d.all.length - 1 : ℕ) : ℚ) = (d.all.length : ℚ) - 1 := by
    rw [Nat.cast_sub hl]; push_cast; rfl
  have hm : m = meanFin d.all ∧ med = medianFin d.all := by
    rw [central_eq d h0 h1] at h
    simp only [if_true, List.cons_append, List.nil_append, Except.ok.injEq, List.cons.injEq,
      Option.some.injEq, and_true] at h
    exact ⟨h.1.symm, h.2.1.symm⟩
  have hmed := hm.2
  rw [medianFin_eq hx] at hmed
  have hq : (d.all.length : ℚ) ≤ 2 * ((d.all.length / 2 : ℕ) : ℚ) + 1 := by
    have : d.all.length ≤ 2 * (d.all.length / 2) + 1 := by omega
    exact_mod_cast this
  have hq2 : 2 * (((d.all.length - 1) / 2 : ℕ) : ℚ) ≤ (d.all.length : ℚ) - 1 := by
    have : 2 * ((d.all.length - 1) / 2) ≤ d.all.length - 1 := by omega
    rw [← hn']
    exact_mod_cast this
  have hn : (1 : ℚ) ≤ d.all.length := by exact_mod_cast hl
  have hb := below_le (x := d.all) (k := d.all.length / 2) (by omega) (v := med)
    (by rw [hmed]; exact interp_le_os hx (by linarith) (by linarith))
  have ha := above_le (x := d.all) (k := (d.all.length - 1) / 2) (v := med)
    (by rw [hmed]; exact os_le_interp hx (by linarith))
  refine ⟨by omega, by omega, ?_⟩
  rw [central_eq d (by norm_num) (by norm_num)]
  have z1 : ((1 : ℚ) - 0) / 2 = 1 / 2 := by norm_num
  have z2 : ((1 : ℚ) + 0) / 2 = 1 / 2 := by norm_num
  rw [z1, z2, quantileFin_eq hx (by norm_num) (by norm_num)]
  have : some (interp d.all (((d.all.length : ℚ) - 1) * (1 / 2))) = some med := by rw [hmed]
  simp only [Bool.false_eq_true, if_false, List.nil_append]
  rw [hm.1]
  unfold Num at *
  rw [this]

/-- **C62.** The level 1 gives the range: every draw is inside. -/
theorem full_level (d : Draws) {m lo hi : ℚ}
    (h : central d.array 1 false = .ok [some m, some lo, some hi]) :
    ∀ a ∈ d.all, lo ≤ a ∧ a ≤ hi := by
  have hk : ((d.all.length : ℚ) - 1) * ((1 - 1) / 2) = ((0 : ℕ) : ℚ) := by norm_num
  obtain ⟨⟨_, hb, _⟩, ⟨_, _, ha⟩⟩ := exact_ranks d h hk
  have ha' : above d.all hi = 0 := by omega
  have hb' : below d.all lo = 0 := by omega
  intro a hm
  unfold above at ha'
  unfold below at hb'
  rw [List.countP_eq_zero] at ha' hb'
  have h1 := ha' a hm
  have h2 := hb' a hm
  simp only [decide_eq_true_eq, not_lt] at h1 h2
  exact ⟨h2, h1⟩

/-- **C62.** Only the collection of draws matters: not their order, nor how they are spread over the
chains. -/
theorem order_irrelevant (d d' : Draws) (h : d.all.Perm d'.all) (c : ℚ) (im : Bool) :
    central d.array c im = central d'.array c im := by
  have hs : sorted d.all = sorted d'.all := by
    have p := (sorted_perm d.all).trans (h.trans (sorted_perm d'.all).symm)
    exact p.eq_of_pairwise (fun a b _ _ h1 h2 => le_antisymm h1 h2) (sorted_pairwise _)
      (sorted_pairwise _)
  have hl := h.length_eq
  have hsum : d.all.sum = d'.all.sum := h.sum_eq
  by_cases hc : -1 ≤ c ∧ c ≤ 1
  · rw [central_eq d hc.1 hc.2, central_eq d' hc.1 hc.2]
    unfold meanFin medianFin quantileFin
    rw [hs, hl, hsum]
  · have n1 := mt (accepted_iff d.array c im).1 hc
    have n2 := mt (accepted_iff d'.array c im).1 hc
    cases e1 : central d.array c im with
    | ok r => exact absurd ⟨r, e1⟩ n1
    | error e =>
      cases e2 : central d'.array c im with
      | ok r => exact absurd ⟨r, e2⟩ n2
      | error e' => cases e; cases e'; rfl

/-- **C62.** One NaN among the draws makes every number of the result NaN. -/
theorem nan_spreads (data : List (List Num)) (h : none ∈ data.flatten) {c : ℚ} {im : Bool}
    {r : List Num} (hr : central data c im = .ok r) : ∀ x ∈ r, x = none := by
  have hq : ∀ f, reduce f data.flatten = none := by
    intro f; unfold reduce; rw [finite_none h]
  have hcc := (accepted_iff _ _ _).1 ⟨r, hr⟩
  have ha : ¬ ((1 - c) / 2 < 0 ∨ 1 < (1 - c) / 2) := by
    rintro (h | h) <;> linarith [hcc.1, hcc.2]
  have hb : ¬ ((1 + c) / 2 < 0 ∨ 1 < (1 + c) / 2) := by
    rintro (h | h) <;> linarith [hcc.1, hcc.2]
  unfold central quantile at hr
  rw [if_neg ha, if_neg hb] at hr
  simp only [hq] at hr
  intro x hx
  cases im
  · simp only [Bool.false_eq_true, if_false, Except.ok.injEq] at hr
    subst hr
    simpa using hx
  · simp only [if_true, Except.ok.injEq] at hr
    subst hr
    simpa using hx

/-! ## Rescaling -/

/-- The draws after `x ↦ a x + b`. -/
def affine (a b : ℚ) (d : Draws) : Draws where
  chains := d.chains.map (·.map fun x => a * x + b)
  some_draw := by
    rw [← List.map_flatten]
    intro h
    exact d.some_draw (List.map_eq_nil_iff.1 h)

theorem affine_all (a b : ℚ) (d : Draws) : (affine a b d).all = d.all.map fun x => a * x + b := by
  unfold affine Draws.all
  simp only
  rw [List.map_flatten]

theorem sorted_affine {a b : ℚ} (ha : 0 ≤ a) (x : List ℚ) :
    sorted (x.map fun v => a * v + b) = (sorted x).map fun v => a * v + b := by
  have p : (sorted (x.map fun v => a * v + b)).Perm ((sorted x).map fun v => a * v + b) :=
    (sorted_perm _).trans ((sorted_perm x).map _).symm
  refine p.eq_of_pairwise (fun a b _ _ h1 h2 => le_antisymm h1 h2) (sorted_pairwise _) ?_
  rw [List.pairwise_map]
  exact (sorted_pairwise x).imp (fun {u v} huv => by nlinarith)

theorem os_affine {a b : ℚ} (ha : 0 ≤ a) {x : List ℚ} (hx : x ≠ []) (i : ℕ) :
    os (x.map fun v => a * v + b) i = a * os x i + b := by
  have hl := List.length_pos_iff.2 hx
  unfold os
  rw [sorted_affine ha, List.length_map]
  have h : min i (x.length - 1) < (sorted x).length := by rw [sorted_length]; omega
  rw [List.getD_eq_getElem _ _ h, List.getD_eq_getElem _ _ (by rw [List.length_map]; exact h),
    List.getElem_map]

/-- **C62.** Rescaling the draws by a factor that is not negative and shifting them rescales and
shifts mean and interval in the same way. -/
theorem rescale (d : Draws) {a b : ℚ} (ha : 0 ≤ a) {c m lo hi : ℚ}
    (h : central d.array c false = .ok [some m, some lo, some hi]) :
    central (affine a b d).array c false =
      .ok [some (a * m + b), some (a * lo + b), some (a * hi + b)] := by
  have hm := mean_is_average d h
  obtain ⟨h0, h1, e1, e2⟩ := ends d h
  obtain ⟨⟨m', lo', hi', h'⟩, -⟩ := result_finite (affine a b d) h0 h1
  have hm' := mean_is_average _ h'
  obtain ⟨-, -, e1', e2'⟩ := ends _ h'
  have hx := d.some_draw
  change d.all ≠ [] at hx
  have hl := List.length_pos_iff.2 hx
  have hl' : (d.all.length : ℚ) ≠ 0 := by exact_mod_cast hl.ne'
  have hi_ : ∀ v, interp (affine a b d).all v = a * interp d.all v + b := by
    intro v
    rw [affine_all]
    unfold interp
    rw [os_affine ha hx, os_affine ha hx]
    ring
  have hlen : (affine a b d).all.length = d.all.length := by rw [affine_all, List.length_map]
  rw [hlen, hi_] at e1' e2'
  have hs : (affine a b d).all.sum = a * d.all.sum + b * d.all.length := by
    rw [affine_all]
    induction d.all with
    | nil => simp
    | cons v l ih => simp only [List.map_cons, List.sum_cons, List.length_cons, ih]; push_cast; ring
  rw [hlen, hs, ← hm] at hm'
  have : m' = a * m + b := by
    apply mul_right_cancel₀ hl'
    rw [hm']; ring
  rw [h', this, e1', e2', e1, e2]

/-! ## What the code does not guarantee -/

/-- **C62 (finding).** A negative level is accepted and returns the interval of the opposite level
with its ends exchanged: the "lower" end is the larger one. -/
theorem negative_level_swaps (d : Draws) {c m lo hi : ℚ}
    (h : central d.array c false = .ok [some m, some lo, some hi]) :
    central d.array (-c) false = .ok [some m, some hi, some lo] := by
  obtain ⟨h0, h1, -, -⟩ := ends d h
  rw [central_eq d h0 h1] at h
  rw [central_eq d (by linarith) (by linarith)]
  have z1 : (1 - -c) / 2 = (1 + c) / 2 := by ring
  have z2 : (1 + -c) / 2 = (1 - c) / 2 := by ring
  rw [z1, z2]
  simp only [Bool.false_eq_true, if_false, List.nil_append, Except.ok.injEq, List.cons.injEq,
    Option.some.injEq, and_true] at h ⊢
  exact ⟨h.1, h.2.2, h.2.1⟩

/-- Draws of one chain. -/
def oneChain (x : List ℚ) (h : x ≠ []) : Draws := ⟨[x], by simpa using h⟩

theorem central_one (x : List ℚ) (h : x ≠ []) {c : ℚ} (h0 : -1 ≤ c) (h1 : c ≤ 1) :
    central (oneChain x h).array c false = .ok [some (meanFin x),
      some (quantileFin x ((1 - c) / 2)), some (quantileFin x ((1 + c) / 2))] := by
  have := central_eq (oneChain x h) h0 h1 false
  have e : (oneChain x h).all = x := by simp [oneChain, Draws.all]
  rw [e] at this
  exact this

/-- **C62 (finding).** The reported mean can lie outside the reported interval: with draws that are
all zero but for one large one, the 90% interval is `[0, 0]` and the mean is positive. -/
theorem mean_outside_interval :
    ∃ (d : Draws) (m lo hi : ℚ),
      central d.array (9 / 10) false = .ok [some m, some lo, some hi] ∧ hi < m := by
  refine ⟨oneChain (1000 :: List.replicate 40 0) (by simp), 1000 / 41, 0, 0, ?_, by norm_num⟩
  rw [central_one _ _ (by norm_num) (by norm_num)]
  have e1 : meanFin (1000 :: List.replicate 40 0) = 1000 / 41 := by decide +kernel
  have e2 : quantileFin (1000 :: List.replicate 40 0) ((1 - 9 / 10) / 2) = 0 := by decide +kernel
  have e3 : quantileFin (1000 :: List.replicate 40 0) ((1 + 9 / 10) / 2) = 0 := by decide +kernel
  rw [e1, e2, e3]

/-! ## The hypotheses are met -/

example : central [[some 3, some 1], [some 4, some 2, some 10]] (1 / 2) true =
    .ok [some 4, some 3, some 2, some 4] := by decide +kernel

example : ∃ (d : Draws) (m med lo hi : ℚ), d.all.length = 5 ∧
    central d.array (9 / 10) true = .ok [some m, some med, some lo, some hi] ∧ lo < med ∧ med < hi :=
  ⟨⟨[[3, 1], [4, 2, 10]], by simp⟩, 4, 3, 6 / 5, 44 / 5, by decide +kernel, by decide +kernel,
    by norm_num, by norm_num⟩

example : central [[some 3, some 1], [some 4, none]] (1 / 2) false = .ok [none, none, none] := by
  decide +kernel

example : central [[some 3, some 1]] (3 / 2) false = .error .levelOutOfRange := by decide +kernel

example : HasRank [3, 1, 4, 2, 10] 1 2 := by
  unfold HasRank; decide +kernel

end Verif.Interval.Props
