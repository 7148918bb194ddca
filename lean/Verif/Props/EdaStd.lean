import Mathlib.Tactic
import Verif.Lemmas.EdaStd

/-!
# C70 and C71: standard deviations, outliers and cost per media unit
-/

namespace Verif.EdaStd.Props

open Verif.EdaStd Verif.EdaStd.Spec Verif.Interval Verif.Interval.Spec Verif.Interval.Props

/-! ## C70: the tables -/

theorem mem_seriesOutliers (s : String × List Num) (r : Row) :
    r ∈ seriesOutliers s ↔ s.1 = r.label ∧ s.2[r.time]? = some (some r.value) ∧
      Outlying s.2.reduceOption r.value := by
  rw [values_eq]
  unfold seriesOutliers
  rw [List.mem_filterMap]
  constructor
  · rintro ⟨⟨v, i⟩, hp, hv⟩
    have hi : s.2[i]? = some v := List.mem_zipIdx_iff_getElem?.1 hp
    by_cases ho : outOfBounds (bounds s.2) v = true
    · simp only [ho, if_true] at hv
      cases v with
      | none => cases hv
      | some w =>
        cases hv
        exact ⟨rfl, hi, (outOfBounds_iff (List.mem_of_getElem? hi)).1 ho⟩
    · simp only [ho] at hv
      cases hv
  · rintro ⟨h1, h2, h3⟩
    refine ⟨(some r.value, r.time), List.mem_zipIdx_iff_getElem?.2 h2, ?_⟩
    simp only [(outOfBounds_iff (List.mem_of_getElem? h2)).2 h3, if_true, Option.map_some, h1]

/-- C70: the table of outliers has exactly the values of a series that Tukey's rule singles out among
the numbers of this series. -/
theorem outliers_reported (d : Data) (r : Row) :
    r ∈ calculateOutliers d ↔ ∃ s ∈ d, s.1 = r.label ∧ s.2[r.time]? = some (some r.value) ∧
      Outlying s.2.reduceOption r.value := by
  unfold calculateOutliers
  rw [List.mem_insertionSort, List.mem_flatMap]
  simp only [mem_seriesOutliers]

/-- C70: the largest in absolute value come first. -/
theorem outliers_sorted (d : Data) :
    (calculateOutliers d).Pairwise fun a b => |b.value| ≤ |a.value| := by
  unfold calculateOutliers
  haveI : Std.Total (fun a b : Row => |b.value| ≤ |a.value|) :=
    ⟨fun a b => le_total _ _⟩
  haveI : IsTrans Row (fun a b : Row => |b.value| ≤ |a.value|) :=
    ⟨fun a b c h1 h2 => le_trans h2 h1⟩
  exact List.pairwise_insertionSort _ _

/-- C70: the table of standard deviations has for each series the one of its numbers and the one of
its numbers without outliers; each is NaN if less than two numbers are left. -/
theorem stds_reported (d : Data) (l : String) (a b : Option ℝ) :
    (l, a, b) ∈ calculateStd d ↔ ∃ s ∈ d, s.1 = l ∧
      (∀ t, a = some t ↔ IsStd s.2.reduceOption t) ∧
      (∀ t, b = some t ↔ ∃ y, Kept s.2.reduceOption y ∧ IsStd y t) := by
  unfold calculateStd
  rw [List.mem_map]
  have hb : ∀ (x : List Num) t, std1 (withoutOutliers x) = some t ↔
      ∃ y, Kept x.reduceOption y ∧ IsStd y t := by
    intro x t
    rw [std1_iff]
    constructor
    · intro h; exact ⟨_, values_withoutOutliers x, h⟩
    · rintro ⟨y, h1, h2⟩
      rwa [← kept_unique h1 (values_withoutOutliers x)]
  constructor
  · rintro ⟨s, hs, he⟩
    cases he
    exact ⟨s, hs, rfl, fun t => std1_iff _ t, hb _⟩
  · rintro ⟨s, hs, h1, h2, h3⟩
    refine ⟨s, hs, ?_⟩
    have ea : std1 s.2 = a := by
      ext t
      rw [h2]
      exact std1_iff _ t
    have eb : std1 (withoutOutliers s.2) = b := by
      ext t
      rw [h3]
      exact hb _ t
    rw [ea, eb, h1]

theorem kept_is_filter {x y : List ℚ} (hx : x ≠ []) (h : Kept x y) :
    y = x.filter fun v => decide (lower x ≤ v ∧ v ≤ upper x) := by
  obtain ⟨p, hp, rfl⟩ := h
  refine List.filter_congr fun v _ => ?_
  rw [Bool.eq_iff_iff, hp, outlying_iff hx, decide_eq_true_eq]
  push Not
  exact Iff.rfl

/-- C70: at least half of the numbers are kept. -/
theorem half_kept {x y : List ℚ} (h : Kept x y) : x.length ≤ 2 * y.length := by
  by_cases hx : x = []
  · subst hx; simp
  have hl : 0 < x.length := List.length_pos_iff.2 hx
  rw [kept_is_filter hx h, ← List.countP_eq_length_filter]
  have h1 : below x (lower x) ≤ x.length / 4 := below_le (by omega) (lower_le_os hx)
  have h2 : above x (upper x) ≤ x.length - 1 - (x.length - 1 - x.length / 4) :=
    above_le (os_le_upper hx)
  have h3 := inside_add x (lo := lower x) (hi := upper x)
  unfold inside at h3
  omega

/-- C70: with three numbers or more, the standard deviation without outliers is a number. -/
theorem std_without_exists (x : List Num) (h : 3 ≤ x.reduceOption.length) :
    ∃ t, std1 (withoutOutliers x) = some t := by
  rw [← Option.ne_none_iff_exists']
  intro hn
  rw [std1_none_iff] at hn
  have := half_kept (values_withoutOutliers x)
  rw [values_eq] at h
  omega

/-- C70: if less than a quarter of the numbers are smaller than `c` and less than a quarter are
larger, all of these, and no others, are outliers. -/
theorem others_are_outliers {x : List ℚ} {c : ℚ} (hb : 4 * below x c < x.length)
    (ha : 4 * above x c < x.length) (v : ℚ) : Outlying x v ↔ v ≠ c := by
  have hx : x ≠ [] := by rintro rfl; simp at hb
  rw [outlying_iff hx]
  obtain ⟨e1, e3⟩ := quartiles_eq hx hb ha
  unfold lower upper
  rw [e1, e3, sub_self, mul_zero, sub_zero, add_zero]
  exact (ne_iff_lt_or_gt).symm

theorem sum_zero_of_all {y : List ℚ} {c : ℚ} (h : ∀ v ∈ y, v = c) :
    (y.map fun a => (a - c) ^ 2).sum = 0 ∧ y.sum = c * y.length := by
  induction y with
  | nil => simp
  | cons a y ih =>
    obtain ⟨i1, i2⟩ := ih fun v hv => h v (List.mem_cons_of_mem _ hv)
    have ha := h a (by simp)
    subst ha
    simp only [List.map_cons, List.sum_cons, List.length_cons, i1, i2, sub_self]
    push_cast
    exact ⟨by ring, by ring⟩

/-- C70 (finding): such a series, say a channel that is off in more than three quarters of the
periods, has standard deviation zero once the outliers are gone, whatever the other values are. -/
theorem mostly_constant_std {x y : List ℚ} {c : ℚ} (hb : 4 * below x c < x.length)
    (ha : 4 * above x c < x.length) (hn : 2 ≤ x.length) (hk : Kept x y) {t : ℝ} :
    IsStd y t ↔ t = 0 := by
  have hall : ∀ v ∈ y, v = c := by
    obtain ⟨p, hp, rfl⟩ := hk
    intro v hv
    have := (hp v).1 (List.mem_filter.1 hv).2
    rw [others_are_outliers hb ha] at this
    exact not_not.1 this
  obtain ⟨s1, s2⟩ := sum_zero_of_all hall
  have hlen : 2 ≤ y.length := by
    have hy : y = x.filter fun v => decide (v = c) := by
      obtain ⟨p, hp, rfl⟩ := hk
      refine List.filter_congr fun v _ => ?_
      rw [Bool.eq_iff_iff, hp, others_are_outliers hb ha, decide_eq_true_eq, not_not]
    have h1 : x.length = below x c + y.length + above x c := by
      rw [hy, ← List.countP_eq_length_filter]
      unfold below above
      clear hb ha hn hk hall s1 s2 hy
      induction x with
      | nil => rfl
      | cons a x ih =>
        simp only [List.length_cons, List.countP_cons]
        rcases lt_trichotomy a c with h | h | h
        · have h1 : ¬ c < a := not_lt.2 h.le
          have h2 : ¬ a = c := h.ne
          simp only [h, h1, h2, decide_true, decide_false, if_true, Bool.false_eq_true, if_false]
          omega
        · subst h
          simp only [lt_irrefl, decide_true, decide_false, if_true, Bool.false_eq_true, if_false]
          omega
        · have h1 : ¬ a < c := not_lt.2 h.le
          have h2 : ¬ a = c := h.ne'
          simp only [h, h1, h2, decide_true, decide_false, if_true, Bool.false_eq_true, if_false]
          omega
    omega
  have hy1 : (0 : ℝ) < (y.length : ℝ) - 1 := by
    have : (2 : ℝ) ≤ y.length := by exact_mod_cast hlen
    linarith
  have hy0 : (y.length : ℚ) ≠ 0 := by
    have : 0 < y.length := by omega
    exact_mod_cast this.ne'
  constructor
  · rintro ⟨-, h0, m, hm, he⟩
    have : m = c := by
      rw [s2] at hm
      exact mul_right_cancel₀ hy0 hm
    subst this
    rw [s1, Rat.cast_zero] at he
    have : t ^ 2 = 0 := by
      rcases mul_eq_zero.1 he with h | h
      · exact h
      · linarith
    exact pow_eq_zero_iff (by norm_num) |>.1 this
  · rintro rfl
    refine ⟨hlen, le_refl _, c, s2.symm, ?_⟩
    rw [s1]; simp

/-- A channel that is on in two of ten periods: both are outliers. -/
example : 4 * below [0, 0, 0, 0, 5, 0, 0, 7, 0, 0] 0 < 10 ∧
    4 * above [0, 0, 0, 0, 5, 0, 0, 7, 0, 0] 0 < 10 ∧
    calculateOutliers [("tv", [some 0, some 0, some 0, some 0, some 5, some 0, some 0, some 7, some 0,
      some 0])] = [⟨"tv", 7, 7⟩, ⟨"tv", 4, 5⟩] := by
  decide +kernel

/-- Ordinary values with one far away, and a missing one. -/
example : calculateOutliers [("kpi", [some 1, some 2, none, some 3, some 4, some 5, some (-100)])] =
    [⟨"kpi", 6, -100⟩] := by decide +kernel

/-- C70: units of measurement do not matter: after rescaling by a positive factor and a shift the
outliers are the rescaled ones. -/
theorem outliers_rescaled {a b : ℚ} (ha : 0 < a) {x : List ℚ} (hx : x ≠ []) (v : ℚ) :
    Outlying (x.map fun w => a * w + b) (a * v + b) ↔ Outlying x v := by
  have hx' : (x.map fun w => a * w + b) ≠ [] := by simpa using hx
  rw [outlying_iff hx, outlying_iff hx']
  obtain ⟨e1, e2⟩ := fences_affine (b := b) ha.le hx
  rw [e1, e2, add_lt_add_iff_right, add_lt_add_iff_right, mul_lt_mul_iff_right₀ ha,
    mul_lt_mul_iff_right₀ ha]

/-! ## C70: the findings -/

/-- Which level a model is checked at. -/
def levelOf (e : Engine) : Level := if e.isNational then .national else .geo

theorem check_ok (e : Engine) : checkStd e = .ok (outcome e (levelOf e)) := by
  unfold checkStd levelOf checkNationalStd checkGeoStd
  cases e.isNational <;> simp

/-- C70: the check for geos refuses national data. -/
theorem geo_check_refused (e : Engine) :
    checkGeoStd e = .error .nationalModel ↔ e.isNational = true := by
  unfold checkGeoStd
  cases e.isNational <;> simp

theorem low_iff (threshold : ℝ) (d : Data) :
    (∃ r ∈ calculateStd d, lowStd threshold r.2.2) ↔ LowVariation threshold d := by
  constructor
  · rintro ⟨⟨l, a, b⟩, hr, hlow⟩
    obtain ⟨s, hs, -, -, h3⟩ := (stds_reported d l a b).1 hr
    cases b with
    | none => exact hlow.elim
    | some t =>
      obtain ⟨y, hy1, hy2⟩ := (h3 t).1 rfl
      exact ⟨s, hs, y, t, hy1, hy2, hlow⟩
  · rintro ⟨s, hs, y, t, h1, h2, h3⟩
    refine ⟨(s.1, std1 s.2, std1 (withoutOutliers s.2)), List.mem_map.2 ⟨s, hs, rfl⟩, ?_⟩
    have : std1 (withoutOutliers s.2) = some t := by
      rw [std1_iff, ← kept_unique h1 (values_withoutOutliers s.2)]
      exact h2
    simp only [this]
    exact h3

theorem exists_mem_iff {α : Type} (l : List α) : (∃ x, x ∈ l) ↔ l ≠ [] := by
  cases l <;> simp

theorem outliers_nil_iff (d : Data) : calculateOutliers d ≠ [] ↔ HasOutlier d := by
  rw [← exists_mem_iff]
  constructor
  · rintro ⟨r, hr⟩
    obtain ⟨s, hs, -, h2, h3⟩ := (outliers_reported d r).1 hr
    exact ⟨s, hs, r.value, List.mem_of_getElem? h2, h3⟩
  · rintro ⟨s, hs, v, h1, h2⟩
    obtain ⟨i, hi⟩ := List.mem_iff_getElem?.1 h1
    exact ⟨⟨s.1, i, v⟩, (outliers_reported d _).2 ⟨s, hs, rfl, hi, h2⟩⟩

theorem mem_checkData (level : Level) (threshold : ℝ) (k : Kind) (d : Data) (f : Finding) :
    f ∈ (checkData level threshold k d).1 ↔
      (f = ⟨.attention, .variability, some k⟩ ∧ LowVariation threshold d) ∨
      (f = ⟨.attention, .outlier, some k⟩ ∧ HasOutlier d) := by
  unfold checkData
  rw [← outliers_nil_iff, ← low_iff, List.mem_append]
  by_cases h1 : ∃ r ∈ calculateStd d, lowStd threshold r.2.2
  · rw [if_pos h1]
    by_cases h2 : calculateOutliers d = []
    · rw [if_pos h2]; simp only [h1, h2, List.mem_singleton, List.not_mem_nil, ne_eq, not_true_eq_false,
        and_true, and_false]
    · rw [if_neg h2]; simp only [h1, h2, List.mem_singleton, ne_eq, not_false_eq_true, and_true]
  · rw [if_neg h1]
    by_cases h2 : calculateOutliers d = []
    · rw [if_pos h2]; simp only [h1, h2, List.not_mem_nil, ne_eq, not_true_eq_false, and_false]
    · rw [if_neg h2]; simp only [h1, h2, List.mem_singleton, List.not_mem_nil, ne_eq,
        not_false_eq_true, and_true, and_false]

theorem mem_loop (e : Engine) (level : Level) (ks : List Kind) (f : Finding) :
    f ∈ (loop e level ks).1 ↔ ∃ k ∈ ks, ∃ d, e.data level k = some d ∧
      ((f = ⟨.attention, .variability, some k⟩ ∧ LowVariation (e.threshold level) d) ∨
       (f = ⟨.attention, .outlier, some k⟩ ∧ HasOutlier d)) := by
  induction ks with
  | nil => simp [loop]
  | cons k ks ih =>
    simp only [loop]
    cases hd : e.data level k with
    | none =>
      simp only [ih, List.mem_cons, exists_eq_or_imp, hd, reduceCtorEq, false_and, exists_false,
        false_or]
    | some d =>
      simp only [List.mem_append, mem_checkData, ih, List.mem_cons, exists_eq_or_imp, hd,
        Option.some.injEq, exists_eq_left']

theorem mem_kinds (k : Kind) : k ∈ kinds := by cases k <;> simp [kinds]

/-- C70: the findings of the check are exactly: for each variable that is there, that some series has
a low standard deviation without its outliers, and that some value is an outlier; and, if there is
nothing else, an information. -/
theorem findings_exact (e : Engine) (f : Finding) (o : List Finding × List Artifact)
    (h : checkStd e = .ok o) :
    f ∈ o.1 ↔
      (∃ k d, e.data (levelOf e) k = some d ∧
        ((f = ⟨.attention, .variability, some k⟩ ∧ LowVariation (e.threshold (levelOf e)) d) ∨
         (f = ⟨.attention, .outlier, some k⟩ ∧ HasOutlier d))) ∨
      (f = ⟨.info, .none, none⟩ ∧ ∀ k d, e.data (levelOf e) k = some d →
        ¬ LowVariation (e.threshold (levelOf e)) d ∧ ¬ HasOutlier d) := by
  rw [check_ok] at h
  cases h
  have hm := mem_loop e (levelOf e) kinds
  have hnil : (loop e (levelOf e) kinds).1 = [] ↔ ∀ k d, e.data (levelOf e) k = some d →
      ¬ LowVariation (e.threshold (levelOf e)) d ∧ ¬ HasOutlier d := by
    rw [List.eq_nil_iff_forall_not_mem]
    constructor
    · intro hall k d hd
      exact ⟨fun hl => hall _ ((hm _).2 ⟨k, mem_kinds k, d, hd, Or.inl ⟨rfl, hl⟩⟩),
        fun hl => hall _ ((hm _).2 ⟨k, mem_kinds k, d, hd, Or.inr ⟨rfl, hl⟩⟩)⟩
    · intro hall f hf
      obtain ⟨k, -, d, hd, hf⟩ := (hm f).1 hf
      rcases hf with hf | hf
      · exact (hall k d hd).1 hf.2
      · exact (hall k d hd).2 hf.2
  unfold outcome
  by_cases hn : (loop e (levelOf e) kinds).1 = []
  · rw [if_pos hn]
    have hall := hnil.1 hn
    simp only [List.mem_singleton]
    constructor
    · intro hf; exact Or.inr ⟨hf, hall⟩
    · rintro (⟨k, d, hd, hf | hf⟩ | hf)
      · exact absurd hf.2 (hall k d hd).1
      · exact absurd hf.2 (hall k d hd).2
      · exact hf.1
  · rw [if_neg hn, hm]
    have hall := fun hh => hn (hnil.2 hh)
    constructor
    · rintro ⟨k, -, d, hd, hf⟩
      exact Or.inl ⟨k, d, hd, hf⟩
    · rintro (⟨k, d, hd, hf⟩ | hf)
      · exact ⟨k, mem_kinds k, d, hd, hf⟩
      · exact absurd hf.2 hall

theorem loop_artifacts (e : Engine) (level : Level) (ks : List Kind) :
    (loop e level ks).2 = ks.filterMap fun k => (e.data level k).map fun d =>
      ⟨k, level, calculateStd d, calculateOutliers d⟩ := by
  induction ks with
  | nil => rfl
  | cons k ks ih =>
    simp only [loop, List.filterMap_cons]
    cases hd : e.data level k with
    | none => simp only [Option.map_none, ih]
    | some d => simp only [Option.map_some, ih, checkData]

/-- C70: the tables of each variable that is there are returned, whatever was found. -/
theorem artifacts_exact (e : Engine) (o : List Finding × List Artifact)
    (h : checkStd e = .ok o) :
    o.2 = [Kind.kpi, .treatmentsControls, .reach, .frequency].filterMap fun k =>
      (e.data (levelOf e) k).map fun d => ⟨k, levelOf e, calculateStd d, calculateOutliers d⟩ := by
  rw [check_ok] at h
  cases h
  unfold outcome
  by_cases hn : (loop e (levelOf e) kinds).1 = []
  · rw [if_pos hn]; exact loop_artifacts _ _ _
  · rw [if_neg hn]; exact loop_artifacts _ _ _

/-- C70 (finding): a channel that is off in more than three quarters of the periods is reported both
for its low variation and for outliers, for every positive threshold, however much it varies. -/
theorem sparse_reported (e : Engine) (o : List Finding × List Artifact) (h : checkStd e = .ok o)
    {k : Kind} {d : Data} (hd : e.data (levelOf e) k = some d) {s : String × List Num} (hs : s ∈ d)
    (ht : 0 < e.threshold (levelOf e)) (hn : 2 ≤ s.2.reduceOption.length)
    (h4 : 4 * (s.2.reduceOption.countP fun v => decide (v ≠ 0)) < s.2.reduceOption.length)
    {v : ℚ} (hv : some v ∈ s.2) (hv0 : v ≠ 0) :
    ⟨.attention, .variability, some k⟩ ∈ o.1 ∧ ⟨.attention, .outlier, some k⟩ ∈ o.1 := by
  set x := s.2.reduceOption with hx
  have hb : 4 * below x 0 < x.length := by
    refine lt_of_le_of_lt ?_ h4
    refine Nat.mul_le_mul_left 4 (List.countP_mono_left fun v _ hv => ?_)
    simp only [decide_eq_true_eq] at hv ⊢
    exact ne_of_lt hv
  have ha : 4 * above x 0 < x.length := by
    refine lt_of_le_of_lt ?_ h4
    refine Nat.mul_le_mul_left 4 (List.countP_mono_left fun v _ hv => ?_)
    simp only [decide_eq_true_eq] at hv ⊢
    exact ne_of_gt hv
  constructor
  · refine (findings_exact e _ o h).2 (Or.inl ⟨k, d, hd, Or.inl ⟨rfl, s, hs, _, 0,
      values_withoutOutliers s.2, ?_, ht⟩⟩)
    exact (mostly_constant_std hb ha hn (values_withoutOutliers s.2)).2 rfl
  · exact (findings_exact e _ o h).2 (Or.inl ⟨k, d, hd, Or.inr ⟨rfl, s, hs, v, hv,
      (others_are_outliers hb ha v).2 hv0⟩⟩)

/-- A model with such a channel. -/
example : ∃ e : Engine, ∃ d s, e.data (levelOf e) .treatmentsControls = some d ∧ s ∈ d ∧
    0 < e.threshold (levelOf e) ∧ 2 ≤ s.2.reduceOption.length ∧
    4 * (s.2.reduceOption.countP fun v => decide (v ≠ 0)) < s.2.reduceOption.length ∧
    some 5 ∈ s.2 :=
  ⟨⟨false, fun _ _ => some [("tv", [some 0, some 0, some 5, some 0, some 0])], fun _ => 1 / 10000⟩,
    [("tv", [some 0, some 0, some 5, some 0, some 0])], _, rfl, List.mem_singleton.2 rfl,
    by norm_num, by decide, by decide +kernel, by simp⟩

/-! ## C71: cost per media unit -/

theorem mem_costRows (p : ℚ → ℚ → Bool) (d : CostData) (r : CostRow) :
    r ∈ costRows p d ↔ ∃ s ∈ d, s.1 = r.label ∧ s.2[r.time]? = some (some r.cost, some r.units) ∧
      p r.cost r.units = true := by
  unfold costRows
  rw [List.mem_flatMap]
  refine exists_congr fun s => and_congr_right fun _ => ?_
  rw [List.mem_filterMap]
  constructor
  · rintro ⟨⟨⟨c, u⟩, i⟩, hq, hr⟩
    have hi : s.2[i]? = some (c, u) := List.mem_zipIdx_iff_getElem?.1 hq
    cases c with
    | none => cases hr
    | some c =>
      cases u with
      | none => cases hr
      | some u =>
        by_cases hp : p c u = true
        · simp only [hp, if_true] at hr
          cases hr
          exact ⟨rfl, hi, hp⟩
        · simp only [hp] at hr
          cases hr
  · rintro ⟨h1, h2, h3⟩
    refine ⟨((some r.cost, some r.units), r.time), List.mem_zipIdx_iff_getElem?.2 h2, ?_⟩
    simp only [h3, if_true, h1]

/-- C71: the table of inconsistencies has exactly the periods of a channel with units for nothing or
money for no units. -/
theorem inconsistencies_reported (d : CostData) (r : CostRow) :
    r ∈ inconsistent d ↔ ∃ s ∈ d, s.1 = r.label ∧
      s.2[r.time]? = some (some r.cost, some r.units) ∧ Contradictory r.cost r.units := by
  unfold inconsistent Contradictory
  rw [List.mem_append, mem_costRows, mem_costRows]
  simp only [decide_eq_true_eq]
  constructor
  · rintro (⟨s, h1, h2, h3, h4⟩ | ⟨s, h1, h2, h3, h4⟩)
    · exact ⟨s, h1, h2, h3, Or.inl h4⟩
    · exact ⟨s, h1, h2, h3, Or.inr h4⟩
  · rintro ⟨s, h1, h2, h3, h4 | h4⟩
    · exact Or.inl ⟨s, h1, h2, h3, h4⟩
    · exact Or.inr ⟨s, h1, h2, h3, h4⟩

theorem unitCosts_eq (l : List (Num × Num)) :
    (l.map perUnit).reduceOption = UnitCosts l := by
  induction l with
  | nil => rfl
  | cons a l ih =>
    obtain ⟨c, u⟩ := a
    cases c with
    | none => exact ih
    | some c =>
      cases u with
      | none => exact ih
      | some u =>
        by_cases hu : u = 0
        · simp only [List.map_cons, perUnit, UnitCosts, if_pos hu]
          exact ih
        · simp only [List.map_cons, perUnit, UnitCosts, if_neg hu, ← ih]
          rfl

/-- C71: the table of outliers has exactly the periods with units in which the cost per unit is an
outlier among the costs per unit of the channel. -/
theorem cost_outliers_reported (d : CostData) (r : Row) :
    r ∈ calculateOutliers (costPerUnit d) ↔ ∃ s ∈ d, s.1 = r.label ∧
      (∃ c u, s.2[r.time]? = some (some c, some u) ∧ u ≠ 0 ∧ r.value = c / u) ∧
      Outlying (UnitCosts s.2) r.value := by
  rw [outliers_reported]
  unfold costPerUnit
  constructor
  · rintro ⟨s, hs, h1, h2, h3⟩
    obtain ⟨s', hs', rfl⟩ := List.mem_map.1 hs
    simp only at h1 h2 h3
    rw [unitCosts_eq] at h3
    refine ⟨s', hs', h1, ?_, h3⟩
    rw [List.getElem?_map] at h2
    cases hc : s'.2[r.time]? with
    | none => rw [hc] at h2; cases h2
    | some p =>
      obtain ⟨c, u⟩ := p
      rw [hc] at h2
      simp only [Option.map_some, Option.some.injEq] at h2
      cases c with
      | none => cases h2
      | some c =>
        cases u with
        | none => cases h2
        | some u =>
          simp only [perUnit] at h2
          by_cases hu : u = 0
          · rw [if_pos hu] at h2; cases h2
          · rw [if_neg hu] at h2
            exact ⟨c, u, rfl, hu, (Option.some.inj h2).symm⟩
  · rintro ⟨s, hs, h1, ⟨c, u, h2, hu, hv⟩, h3⟩
    refine ⟨_, List.mem_map.2 ⟨s, hs, rfl⟩, h1, ?_, ?_⟩
    · simp only [List.getElem?_map, h2, Option.map_some, perUnit, if_neg hu, hv]
    · simp only [unitCosts_eq]; exact h3

/-- C71: the findings are exactly: an inconsistency, an outlier, and an information if there is
neither. -/
theorem cost_findings_exact (d : CostData) (f : Finding) :
    f ∈ costFindings d ↔
      (f = ⟨.attention, .inconsistent, none⟩ ∧ ∃ r, r ∈ inconsistent d) ∨
      (f = ⟨.attention, .outlier, none⟩ ∧ ∃ r, r ∈ calculateOutliers (costPerUnit d)) ∨
      (f = ⟨.info, .none, none⟩ ∧ (∀ r, r ∉ inconsistent d) ∧
        ∀ r, r ∉ calculateOutliers (costPerUnit d)) := by
  rw [← List.eq_nil_iff_forall_not_mem, ← List.eq_nil_iff_forall_not_mem,
    exists_mem_iff, exists_mem_iff]
  unfold costFindings
  by_cases h1 : inconsistent d = [] <;> by_cases h2 : calculateOutliers (costPerUnit d) = [] <;>
    simp [h1, h2]

/-- C71: which data are checked. -/
theorem cost_level (isNational : Bool) (d : Level → CostData) :
    checkCostPerUnit isNational d =
      .ok (checkCost (if isNational then .national else .geo)
        (d (if isNational then .national else .geo))) ∧
    (checkGeoCost isNational d = .error .nationalModel ↔ isNational = true) := by
  cases isNational <;> simp [checkCostPerUnit, checkNationalCost, checkGeoCost]

theorem unitCosts_scaled (a : ℚ) (l : List (Num × Num)) :
    UnitCosts (l.map fun p => (p.1.map (a * ·), p.2)) = (UnitCosts l).map fun w => a * w + 0 := by
  induction l with
  | nil => rfl
  | cons p l ih =>
    obtain ⟨c, u⟩ := p
    cases c with
    | none => simpa [UnitCosts] using ih
    | some c =>
      cases u with
      | none => simpa [UnitCosts] using ih
      | some u =>
        simp only [List.map_cons, Option.map_some, UnitCosts]
        by_cases hu : u = 0
        · rw [if_pos hu, if_pos hu, ih]
        · rw [if_neg hu, if_neg hu, ih, List.map_cons]
          congr 1
          ring

/-- C71: the currency does not matter: with all costs in another currency, the same periods are
reported, with the cost per unit in that currency. -/
theorem currency_irrelevant {a : ℚ} (ha : 0 < a) (d : CostData) :
    let d' : CostData := d.map fun s => (s.1, s.2.map fun p => (p.1.map (a * ·), p.2))
    (∀ l i c u, (⟨l, i, a * c, u⟩ : CostRow) ∈ inconsistent d' ↔ ⟨l, i, c, u⟩ ∈ inconsistent d) ∧
    (∀ l i v, (⟨l, i, a * v⟩ : Row) ∈ calculateOutliers (costPerUnit d') ↔
      ⟨l, i, v⟩ ∈ calculateOutliers (costPerUnit d)) := by
  intro d'
  have get : ∀ (s : String × List (Num × Num)) (i : ℕ) (c u : ℚ),
      (s.2.map fun p => (p.1.map (a * ·), p.2))[i]? = some (some (a * c), some u) ↔
        s.2[i]? = some (some c, some u) := by
    intro s i c u
    rw [List.getElem?_map]
    cases hp : s.2[i]? with
    | none => simp
    | some p =>
      obtain ⟨c', u'⟩ := p
      cases c' <;> cases u' <;> simp [ha.ne']
  constructor
  · intro l i c u
    rw [inconsistencies_reported, inconsistencies_reported]
    have hc : Contradictory (a * c) u ↔ Contradictory c u := by
      unfold Contradictory
      rw [mul_eq_zero, or_iff_right ha.ne', mul_pos_iff_of_pos_left ha]
    constructor
    · rintro ⟨s, hs, h1, h2, h3⟩
      obtain ⟨s', hs', rfl⟩ := List.mem_map.1 hs
      exact ⟨s', hs', h1, (get s' i c u).1 h2, hc.1 h3⟩
    · rintro ⟨s, hs, h1, h2, h3⟩
      exact ⟨_, List.mem_map.2 ⟨s, hs, rfl⟩, h1, (get s i c u).2 h2, hc.2 h3⟩
  · intro l i v
    rw [cost_outliers_reported, cost_outliers_reported]
    have out : ∀ (s : String × List (Num × Num)), (∃ c u, s.2[i]? = some (some c, some u) ∧ u ≠ 0) →
        (Outlying (UnitCosts (s.2.map fun p => (p.1.map (a * ·), p.2))) (a * v) ↔
          Outlying (UnitCosts s.2) v) := by
      rintro s ⟨c, u, hs, hu⟩
      have hne : UnitCosts s.2 ≠ [] := by
        rw [← unitCosts_eq]
        have hm : (some (c / u) : Num) ∈ s.2.map perUnit :=
          List.mem_map.2 ⟨_, List.mem_of_getElem? hs, by simp only [perUnit, if_neg hu]⟩
        exact values_ne_nil hm
      have := outliers_rescaled (b := 0) ha hne v
      rw [← unitCosts_scaled, add_zero] at this
      exact this
    constructor
    · rintro ⟨s, hs, h1, ⟨c, u, h2, hu, hv⟩, h3⟩
      obtain ⟨s', hs', rfl⟩ := List.mem_map.1 hs
      simp only at h1 h2 h3 hv
      obtain ⟨c', rfl⟩ : ∃ c', c = a * c' := ⟨c / a, by field_simp⟩
      have h2' := (get s' i c' u).1 h2
      have hv' : v = c' / u := by
        rw [mul_div_assoc] at hv
        exact mul_left_cancel₀ ha.ne' hv
      exact ⟨s', hs', h1, ⟨c', u, h2', hu, hv'⟩, (out s' ⟨c', u, h2', hu⟩).1 h3⟩
    · rintro ⟨s, hs, h1, ⟨c, u, h2, hu, hv⟩, h3⟩
      simp only at h1 h2 h3 hv
      refine ⟨_, List.mem_map.2 ⟨s, hs, rfl⟩, h1, ⟨a * c, u, (get s i c u).2 h2, hu, ?_⟩,
        (out s ⟨c, u, h2, hu⟩).2 h3⟩
      simp only
      rw [hv, mul_div_assoc]

/-- Free units in one period, units missing in another, and an expensive period. -/
example :
    let d : CostData := [("tv", [(some 1, some 10), (some 0, some 5), (some 3, some 0),
      (some 1, some 10), (some 1, some 10), (some 1, some 10), (some 100, some 10)])]
    inconsistent d = [⟨"tv", 1, 0, 5⟩, ⟨"tv", 2, 3, 0⟩] ∧
    calculateOutliers (costPerUnit d) = [⟨"tv", 6, 10⟩, ⟨"tv", 1, 0⟩] ∧
    costFindings d = [⟨.attention, .inconsistent, none⟩, ⟨.attention, .outlier, none⟩] := by
  decide +kernel

/-- Consistent data: an information only. -/
example : costFindings [("tv", [(some 1, some 10), (some 0, some 0), (some 2, some 20)])] =
    [⟨.info, .none, none⟩] := by decide +kernel

end Verif.EdaStd.Props
