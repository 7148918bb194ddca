import Mathlib.Tactic
import Verif.Model.EdaStd
import Verif.Spec.EdaStd
import Verif.Props.Interval

/-!
# Lemmas on quartiles, fences and standard deviations
-/

namespace Verif.EdaStd.Props

open Verif.EdaStd Verif.EdaStd.Spec Verif.Interval Verif.Interval.Spec Verif.Interval.Props

theorem os_hasRank {x : List ℚ} (hx : x ≠ []) {k : ℕ} (hk : k < x.length) : HasRank x k (os x k) :=
  ⟨os_mem x hx k, below_le hk (le_refl _), above_le (le_refl _)⟩

theorem hasRank_unique {x : List ℚ} {k : ℕ} (hk : k < x.length) {a b : ℚ} (ha : HasRank x k a)
    (hb : HasRank x k b) : a = b := by
  have key : ∀ {a b : ℚ}, HasRank x k a → HasRank x k b → ¬ a < b := by
    intro a b ha hb hab
    have h1 := below_add x b
    have h2 : x.countP (fun c => decide (b ≤ c)) ≤ above x a := by
      unfold above
      refine List.countP_mono_left fun c _ hc => ?_
      simp only [decide_eq_true_eq] at hc ⊢
      exact lt_of_lt_of_le hab hc
    have h3 := hb.2.1
    have h4 := ha.2.2
    omega
  rcases lt_trichotomy a b with h | h | h
  · exact absurd h (key ha hb)
  · exact h
  · exact absurd h (key hb ha)

theorem isQuantile_iff {x : List ℚ} (hx : x ≠ []) {q : ℚ} (h0 : 0 ≤ q) (h1 : q ≤ 1) (v : ℚ) :
    IsQuantile x q v ↔ v = quantileFin x q := by
  have hl : 0 < x.length := List.length_pos_iff.2 hx
  rw [quantileFin_eq hx h0 h1]
  obtain ⟨b0, b1⟩ := virtual_bounds hx h0 h1
  obtain ⟨f1, f2⟩ := floor_toNat b0
  set h := ((x.length : ℚ) - 1) * q with hh
  have hlt : ∀ k : ℕ, (k : ℚ) ≤ h → k < x.length := by
    intro k hk
    have : (k : ℚ) ≤ ((x.length - 1 : ℕ) : ℚ) := by
      rw [Nat.cast_sub hl]; push_cast; linarith
    have : k ≤ x.length - 1 := by exact_mod_cast this
    omega
  have hmin : ∀ k : ℕ, os x (min (k + 1) (x.length - 1)) = os x (k + 1) := by
    intro k; unfold os; congr 1; omega
  constructor
  · rintro ⟨k, a, b, ha, hb, hk1, hk2, rfl⟩
    have hk := hlt k hk1
    have ek : ⌊h⌋.toNat = k := by
      have e1 : (⌊h⌋.toNat : ℚ) < (k : ℚ) + 1 := lt_of_le_of_lt f1 hk2
      have e2 : (k : ℚ) < (⌊h⌋.toNat : ℚ) + 1 := lt_of_le_of_lt hk1 f2
      have e1' : ⌊h⌋.toNat < k + 1 := by exact_mod_cast e1
      have e2' : k < ⌊h⌋.toNat + 1 := by exact_mod_cast e2
      omega
    unfold interp
    rw [ek, hasRank_unique hk ha (os_hasRank hx hk),
      hasRank_unique (by omega) hb (os_hasRank hx (by omega)), hmin]
  · rintro rfl
    refine ⟨⌊h⌋.toNat, os x ⌊h⌋.toNat, os x (⌊h⌋.toNat + 1), os_hasRank hx (hlt _ f1), ?_, f1, f2,
      rfl⟩
    rw [← hmin]
    exact os_hasRank hx (by omega)

/-- The quartiles. -/
def q1 (x : List ℚ) : ℚ := interp x (((x.length : ℚ) - 1) * (1 / 4))
def q3 (x : List ℚ) : ℚ := interp x (((x.length : ℚ) - 1) * (3 / 4))

/-- The fences. -/
def lower (x : List ℚ) : ℚ := q1 x - 3 / 2 * (q3 x - q1 x)
def upper (x : List ℚ) : ℚ := q3 x + 3 / 2 * (q3 x - q1 x)

theorem outlying_iff {x : List ℚ} (hx : x ≠ []) (v : ℚ) :
    Outlying x v ↔ v < lower x ∨ upper x < v := by
  unfold Outlying lower upper
  have e1 := isQuantile_iff hx (q := 1 / 4) (by norm_num) (by norm_num)
  have e3 := isQuantile_iff hx (q := 3 / 4) (by norm_num) (by norm_num)
  rw [quantileFin_eq hx (by norm_num) (by norm_num)] at e1 e3
  constructor
  · rintro ⟨a, b, ha, hb, h⟩
    rw [e1] at ha
    rw [e3] at hb
    subst ha hb
    exact h
  · intro h
    exact ⟨q1 x, q3 x, (e1 _).2 rfl, (e3 _).2 rfl, h⟩

theorem bounds_eq (x : List Num) :
    bounds x = if values x = [] then none else some (lower (values x), upper (values x)) := by
  unfold bounds
  by_cases h : values x = []
  · rw [if_pos h, if_pos h]
  · rw [if_neg h, if_neg h]
    simp only [quantileFin_eq h (q := 1 / 4) (by norm_num) (by norm_num),
      quantileFin_eq h (q := 3 / 4) (by norm_num) (by norm_num)]
    rfl

theorem values_ne_nil {x : List Num} {v : ℚ} (h : some v ∈ x) : values x ≠ [] :=
  List.ne_nil_of_mem (List.mem_filterMap.2 ⟨some v, h, rfl⟩)

theorem outOfBounds_iff {x : List Num} {v : ℚ} (h : some v ∈ x) :
    outOfBounds (bounds x) (some v) = true ↔ Outlying (values x) v := by
  have hx := values_ne_nil h
  rw [outlying_iff hx, bounds_eq, if_neg hx]
  simp only [outOfBounds, decide_eq_true_eq]

theorem inBounds_iff {x : List Num} {v : ℚ} (h : some v ∈ x) :
    inBounds (bounds x) (some v) = true ↔ ¬ Outlying (values x) v := by
  have hx := values_ne_nil h
  rw [outlying_iff hx, bounds_eq, if_neg hx]
  simp only [inBounds, decide_eq_true_eq]
  push Not
  exact Iff.rfl

theorem values_eq (x : List Num) : x.reduceOption = values x := rfl

theorem filterMap_keep (b : Option (ℚ × ℚ)) (l : List Num) :
    (l.map fun v => if inBounds b v then v else none).filterMap id =
      (l.filterMap id).filter fun v => inBounds b (some v) := by
  induction l with
  | nil => rfl
  | cons a l ih =>
    cases a with
    | none => simpa [inBounds] using ih
    | some v =>
      have e1 : ((some v :: l : List Num).filterMap id) = v :: l.filterMap id := rfl
      rw [e1, List.map_cons, List.filter_cons]
      by_cases h : inBounds b (some v) = true
      · rw [if_pos h, if_pos h, ← ih]
        rfl
      · rw [if_neg h, if_neg h, ← ih]
        rfl

theorem values_withoutOutliers (x : List Num) : Kept (values x) (values (withoutOutliers x)) := by
  classical
  refine ⟨fun v => decide (¬ Outlying (values x) v), fun v => by simp, ?_⟩
  unfold withoutOutliers
  show (List.map _ x).filterMap id = _
  rw [filterMap_keep]
  refine List.filter_congr fun v hv => ?_
  obtain ⟨w, hw, hw'⟩ := List.mem_filterMap.1 hv
  simp only [id] at hw'
  subst hw'
  have := inBounds_iff hw
  by_cases ho : Outlying (values x) v
  · have hf : inBounds (bounds x) (some v) = false := by
      rw [Bool.eq_false_iff, Ne, this]; exact fun h => h ho
    simp [ho, hf]
  · simp [ho, this.2 ho]

theorem kept_unique {x y z : List ℚ} (hy : Kept x y) (hz : Kept x z) : y = z := by
  obtain ⟨p, hp, rfl⟩ := hy
  obtain ⟨r, hr, rfl⟩ := hz
  refine List.filter_congr fun v _ => ?_
  rw [Bool.eq_iff_iff, hp, hr]

theorem std1_iff (x : List Num) (s : ℝ) : std1 x = some s ↔ IsStd (values x) s := by
  unfold std1 IsStd
  simp only
  by_cases h : (values x).length ≤ 1
  · rw [if_pos h]
    constructor
    · intro hh; cases hh
    · rintro ⟨h2, -⟩; omega
  · rw [if_neg h]
    set v := values x with hv
    have hn : (0 : ℚ) < v.length := by
      have : 0 < v.length := by omega
      exact_mod_cast this
    have hn1 : (0 : ℚ) < (v.length : ℚ) - 1 := by
      have : (1 : ℚ) < v.length := by
        have : 1 < v.length := by omega
        exact_mod_cast this
      linarith
    have hn1' : (0 : ℝ) < (v.length : ℝ) - 1 := by
      have := (Rat.cast_pos (K := ℝ)).2 hn1
      push_cast at this
      exact this
    have hs0 : ∀ m : ℚ, 0 ≤ (v.map fun a => (a - m) ^ 2).sum := by
      intro m
      refine List.sum_nonneg ?_
      intro b hb
      obtain ⟨a, -, rfl⟩ := List.mem_map.1 hb
      positivity
    have hq : (((v.map fun a => (a - v.sum / v.length) ^ 2).sum / ((v.length : ℚ) - 1) : ℚ) : ℝ) =
        (((v.map fun a => (a - v.sum / v.length) ^ 2).sum : ℚ) : ℝ) / ((v.length : ℝ) - 1) := by
      push_cast; rfl
    have hs0' := (Rat.cast_nonneg (K := ℝ)).2 (hs0 (v.sum / v.length))
    rw [Option.some.injEq]
    constructor
    · rintro rfl
      refine ⟨by omega, Real.sqrt_nonneg _, v.sum / v.length, div_mul_cancel₀ _ hn.ne', ?_⟩
      rw [Real.sq_sqrt, hq, div_mul_cancel₀ _ hn1'.ne']
      rw [hq]; positivity
    · rintro ⟨-, h0, m, hm, he⟩
      have em : m = v.sum / v.length := by
        rw [← hm, mul_div_assoc, div_self hn.ne', mul_one]
      rw [em] at he
      rw [hq, ← he, mul_div_assoc, div_self hn1'.ne', mul_one]
      exact Real.sqrt_sq h0

theorem std1_none_iff (x : List Num) : std1 x = none ↔ (values x).length ≤ 1 := by
  unfold std1
  simp only
  by_cases h : (values x).length ≤ 1
  · simp [h]
  · rw [if_neg h]; simp [h]

/-! ## How many outliers -/

theorem interp_between {x : List ℚ} (k : ℕ) {f : ℚ} (h0 : 0 ≤ f) (h1 : f ≤ 1) :
    interp x (k + f) = os x k + f * (os x (k + 1) - os x k) := by
  rcases eq_or_lt_of_le h1 with e | e
  · subst e
    have : ((k : ℚ) + 1) = ((k + 1 : ℕ) : ℚ) := by push_cast; rfl
    rw [this, interp_nat]; ring
  · have hfl : ⌊(k : ℚ) + f⌋.toNat = k := by
      have : ⌊(k : ℚ) + f⌋ = (k : ℤ) := by
        rw [Int.floor_eq_iff]
        push_cast
        exact ⟨by linarith, by linarith⟩
      rw [this]; rfl
    unfold interp
    rw [hfl]; ring

theorem lower_le_os {x : List ℚ} (hx : x ≠ []) : lower x ≤ os x (x.length / 4) := by
  have hl : 0 < x.length := List.length_pos_iff.2 hx
  obtain ⟨m, r, hr, hn⟩ : ∃ m r : ℕ, r < 4 ∧ x.length = 4 * m + r :=
    ⟨x.length / 4, x.length % 4, Nat.mod_lt _ (by norm_num), by omega⟩
  have hm : x.length / 4 = m := by omega
  have hnq : (x.length : ℚ) = 4 * m + r := by exact_mod_cast hn
  have hn1 : (1 : ℚ) ≤ x.length := by exact_mod_cast hl
  rw [hm]
  have hq : q1 x ≤ q3 x := by
    refine interp_mono hx ?_ ?_ <;> nlinarith
  unfold lower
  have hmono := os_mono x hx (Nat.le_succ m)
  simp only [Nat.succ_eq_add_one] at hmono
  interval_cases r
  · have : q1 x ≤ os x m := interp_le_os hx (by nlinarith) (by rw [hnq]; push_cast; linarith)
    linarith
  · have : q1 x ≤ os x m := interp_le_os hx (by nlinarith) (by rw [hnq]; push_cast; linarith)
    linarith
  · have e1 : q1 x = os x m + (1 / 4) * (os x (m + 1) - os x m) := by
      rw [← interp_between m (by norm_num) (by norm_num)]
      unfold q1; congr 1; rw [hnq]; push_cast; ring
    have e3 : os x m + (3 / 4) * (os x (m + 1) - os x m) ≤ q3 x := by
      rw [← interp_between m (by norm_num) (by norm_num)]
      refine interp_mono hx (by positivity) ?_
      rw [hnq]; push_cast
      have : (0 : ℚ) ≤ m := Nat.cast_nonneg m
      linarith
    linarith
  · have e1 : q1 x = os x m + (1 / 2) * (os x (m + 1) - os x m) := by
      rw [← interp_between m (by norm_num) (by norm_num)]
      unfold q1; congr 1; rw [hnq]; push_cast; ring
    have e3 : os x m + 1 * (os x (m + 1) - os x m) ≤ q3 x := by
      rw [← interp_between m (by norm_num) (by norm_num)]
      refine interp_mono hx (by positivity) ?_
      rw [hnq]; push_cast
      have : (0 : ℚ) ≤ m := Nat.cast_nonneg m
      linarith
    linarith

theorem os_le_upper {x : List ℚ} (hx : x ≠ []) : os x (x.length - 1 - x.length / 4) ≤ upper x := by
  have hl : 0 < x.length := List.length_pos_iff.2 hx
  obtain ⟨m, r, hr, hn⟩ : ∃ m r : ℕ, r < 4 ∧ x.length = 4 * m + r :=
    ⟨x.length / 4, x.length % 4, Nat.mod_lt _ (by norm_num), by omega⟩
  have hnq : (x.length : ℚ) = 4 * m + r := by exact_mod_cast hn
  have hn1 : (1 : ℚ) ≤ x.length := by exact_mod_cast hl
  have hq : q1 x ≤ q3 x := by
    refine interp_mono hx ?_ ?_ <;> nlinarith
  unfold upper
  have m0 : (0 : ℚ) ≤ m := Nat.cast_nonneg m
  interval_cases r
  · have hk : x.length - 1 - x.length / 4 = 3 * m - 1 := by omega
    have hm1 : 1 ≤ 3 * m := by omega
    have : os x (3 * m - 1) ≤ q3 x := by
      refine os_le_interp hx ?_
      rw [hnq, Nat.cast_sub hm1]; push_cast; linarith
    rw [hk]; linarith
  · have hk : x.length - 1 - x.length / 4 = 3 * m := by omega
    have : os x (3 * m) ≤ q3 x := by
      refine os_le_interp hx ?_
      rw [hnq]; push_cast; linarith
    rw [hk]; linarith
  · have hk : x.length - 1 - x.length / 4 = 3 * m + 1 := by omega
    have hmono := os_mono x hx (Nat.le_succ (3 * m))
    simp only [Nat.succ_eq_add_one] at hmono
    have e3 : q3 x = os x (3 * m) + (3 / 4) * (os x (3 * m + 1) - os x (3 * m)) := by
      rw [← interp_between (3 * m) (by norm_num) (by norm_num)]
      unfold q3; congr 1; rw [hnq]; push_cast; ring
    have e1 : q1 x ≤ os x (3 * m) + (1 / 4) * (os x (3 * m + 1) - os x (3 * m)) := by
      rw [← interp_between (3 * m) (by norm_num) (by norm_num)]
      refine interp_mono hx (by rw [hnq]; push_cast; linarith) ?_
      rw [hnq]; push_cast
      linarith
    rw [hk]; linarith
  · have hk : x.length - 1 - x.length / 4 = 3 * m + 1 + 1 := by omega
    have hmono := os_mono x hx (Nat.le_succ (3 * m + 1))
    simp only [Nat.succ_eq_add_one] at hmono
    have e3 : q3 x = os x (3 * m + 1) + (1 / 2) * (os x (3 * m + 1 + 1) - os x (3 * m + 1)) := by
      rw [← interp_between (3 * m + 1) (by norm_num) (by norm_num)]
      unfold q3; congr 1; rw [hnq]; push_cast; ring
    have e1 : q1 x ≤ os x (3 * m + 1) + 0 * (os x (3 * m + 1 + 1) - os x (3 * m + 1)) := by
      rw [← interp_between (3 * m + 1) (by norm_num) (by norm_num)]
      refine interp_mono hx (by rw [hnq]; push_cast; linarith) ?_
      rw [hnq]; push_cast
      linarith
    rw [hk]; linarith

/-! ## Many equal values -/

theorem os_eq_of_counts {x : List ℚ} (hx : x ≠ []) {c : ℚ} {k : ℕ} (hk : k < x.length)
    (hb : below x c ≤ k) (ha : above x c ≤ x.length - 1 - k) : os x k = c := by
  have h1 := os_hasRank hx hk
  rcases lt_trichotomy (os x k) c with h | h | h
  · exfalso
    have h2 := below_add x c
    have h3 : x.countP (fun v => decide (c ≤ v)) ≤ above x (os x k) := by
      unfold above
      refine List.countP_mono_left fun v _ hv => ?_
      simp only [decide_eq_true_eq] at hv ⊢
      exact lt_of_lt_of_le h hv
    have := h1.2.2
    omega
  · exact h
  · exfalso
    have h2 := above_add x c
    have h3 : x.countP (fun v => decide (v ≤ c)) ≤ below x (os x k) := by
      unfold below
      refine List.countP_mono_left fun v _ hv => ?_
      simp only [decide_eq_true_eq] at hv ⊢
      exact lt_of_le_of_lt hv h
    have := h1.2.1
    omega

theorem quartiles_eq {x : List ℚ} (hx : x ≠ []) {c : ℚ} (hb : 4 * below x c < x.length)
    (ha : 4 * above x c < x.length) : q1 x = c ∧ q3 x = c := by
  have hl : 0 < x.length := List.length_pos_iff.2 hx
  have key : ∀ h : ℚ, ((x.length : ℚ) - 1) * (1 / 4) ≤ h → h ≤ ((x.length : ℚ) - 1) * (3 / 4) →
      interp x h = c := by
    intro h h1 h3
    have hn1 : (1 : ℚ) ≤ x.length := by exact_mod_cast hl
    have h0 : 0 ≤ h := le_trans (by nlinarith) h1
    have e1 : os x (below x c) = c := os_eq_of_counts hx (by omega) (le_refl _) (by omega)
    have e2 : os x (x.length - 1 - above x c) = c :=
      os_eq_of_counts hx (by omega) (by omega) (by omega)
    have hb' : (4 * below x c : ℚ) ≤ (x.length : ℚ) - 1 := by
      have : 4 * below x c + 1 ≤ x.length := hb
      have : ((4 * below x c + 1 : ℕ) : ℚ) ≤ x.length := by exact_mod_cast this
      push_cast at this
      linarith
    have ha' : (4 * above x c : ℚ) ≤ (x.length : ℚ) - 1 := by
      have : 4 * above x c + 1 ≤ x.length := ha
      have : ((4 * above x c + 1 : ℕ) : ℚ) ≤ x.length := by exact_mod_cast this
      push_cast at this
      linarith
    refine le_antisymm ?_ ?_
    · refine le_trans (interp_le_os hx h0 (k := x.length - 1 - above x c) ?_) e2.le
      rw [Nat.cast_sub (by omega), Nat.cast_sub (by omega)]
      push_cast
      linarith
    · refine le_trans e1.ge (os_le_interp hx ?_)
      linarith
  have hn1 : (1 : ℚ) ≤ x.length := by exact_mod_cast hl
  exact ⟨key _ (le_refl _) (by linarith), key _ (by linarith) (le_refl _)⟩

/-! ## Rescaling -/

theorem interp_affine {a b : ℚ} (ha : 0 ≤ a) {x : List ℚ} (hx : x ≠ []) (h : ℚ) :
    interp (x.map fun v => a * v + b) h = a * interp x h + b := by
  unfold interp
  rw [os_affine ha hx, os_affine ha hx]
  ring

theorem fences_affine {a b : ℚ} (ha : 0 ≤ a) {x : List ℚ} (hx : x ≠ []) :
    lower (x.map fun v => a * v + b) = a * lower x + b ∧
    upper (x.map fun v => a * v + b) = a * upper x + b := by
  unfold lower upper q1 q3
  simp only [List.length_map, interp_affine ha hx]
  exact ⟨by ring, by ring⟩

end Verif.EdaStd.Props
