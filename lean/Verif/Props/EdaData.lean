import Verif.Spec.EdaData
import Verif.Lemmas.EdaData
import Verif.Props.Eda

/-!
# C72: the data behind the exploratory checks

National series are sums over geos in the modelled periods, or what the user's function makes of
them; national frequency is the mean frequency weighted by reach; scaled series do not depend on the
units media are counted in; and a reach and frequency channel without impressions in the modelled
periods stops sampling although the model was accepted.
-/

namespace Verif.EdaData.Props

open Verif.Transformers Verif.EdaData.Spec Finset

theorem national_iff (r : Raw) : r.national = true ↔ r.G = 1 := by simp [Raw.national]

theorem list_sum_range (n : ℕ) (f : ℕ → ℝ) : ((List.range n).map f).sum = ∑ g ∈ range n, f g := by
  rw [Finset.sum_range, ← List.sum_ofFn, List.ofFn_eq_map]
  congr 1
  rw [← List.map_coe_finRange_eq_range, List.map_map]
  rfl

theorem sumGeos_eq (G : ℕ) (x : Panel) (g t : ℕ) : sumGeos G x g t = ∑ i ∈ range G, x i t :=
  list_sum_range G fun i => x i t

/-! ### National frequency -/

/-- **C72 (frequency).** Reach and impressions of the nation are the sums over geos; frequency times
reach are the impressions, the frequency lies between those of the geos reached, and it is zero if
nobody was reached. -/
theorem national_frequency (r : Raw) (hG : r.G ≠ 1) (reach freq : Panel) (t : ℕ)
    (hr : ∀ g < r.G, 0 ≤ reach g (r.lead + t)) :
    r.nationalReach reach 0 t = ∑ g ∈ range r.G, reach g (r.lead + t) ∧
    r.nationalImpressions reach freq 0 t
      = ∑ g ∈ range r.G, reach g (r.lead + t) * freq g (r.lead + t) ∧
    r.nationalFrequency reach freq 0 t * r.nationalReach reach 0 t
      = r.nationalImpressions reach freq 0 t ∧
    ((∀ g < r.G, reach g (r.lead + t) = 0) → r.nationalFrequency reach freq 0 t = 0) ∧
    ∀ lo hi, (∃ g < r.G, 0 < reach g (r.lead + t)) →
      (∀ g < r.G, 0 < reach g (r.lead + t) →
        lo ≤ freq g (r.lead + t) ∧ freq g (r.lead + t) ≤ hi) →
      lo ≤ r.nationalFrequency reach freq 0 t ∧ r.nationalFrequency reach freq 0 t ≤ hi := by
  have hn : r.national = false := by simpa [Raw.national] using hG
  have e1 : r.nationalReach reach 0 t = ∑ g ∈ range r.G, reach g (r.lead + t) := by
    simp [Raw.nationalReach, Raw.nationalSum, hn, sumGeos_eq, truncate]
  have e2 : r.nationalImpressions reach freq 0 t
      = ∑ g ∈ range r.G, reach g (r.lead + t) * freq g (r.lead + t) := by
    simp [Raw.nationalImpressions, Raw.nationalSum, hn, sumGeos_eq, truncate, Raw.impressions]
  have hnn : ∀ g ∈ range r.G, 0 ≤ reach g (r.lead + t) := fun g hg => hr g (mem_range.1 hg)
  have e3 : r.nationalFrequency reach freq 0 t = if r.nationalReach reach 0 t = 0 then 0
      else r.nationalImpressions reach freq 0 t / r.nationalReach reach 0 t := by
    simp [Raw.nationalFrequency, hn]
  refine ⟨e1, e2, ?_, ?_, ?_⟩
  · rw [e3]
    by_cases h0 : r.nationalReach reach 0 t = 0
    · rw [if_pos h0, zero_mul, e2]
      rw [e1, sum_eq_zero_iff_of_nonneg hnn] at h0
      rw [sum_eq_zero]
      intro g hg
      rw [h0 g hg, zero_mul]
    · rw [if_neg h0, div_mul_cancel₀ _ h0]
  · intro h
    rw [e3, if_pos]
    rw [e1]
    exact sum_eq_zero fun g hg => h g (mem_range.1 hg)
  · intro lo hi ⟨g, hg, hpos⟩ hb
    have hR : 0 < r.nationalReach reach 0 t := by
      rw [e1]
      exact sum_pos' hnn ⟨g, mem_range.2 hg, hpos⟩
    rw [e3, if_neg hR.ne', le_div_iff₀ hR, div_le_iff₀ hR, e1, e2, mul_sum, mul_sum]
    constructor
    · apply sum_le_sum
      intro i hi'
      rcases (hnn i hi').eq_or_lt with h | h
      · rw [← h]; simp
      · nlinarith [(hb i (mem_range.1 hi') h).1]
    · apply sum_le_sum
      intro i hi'
      rcases (hnn i hi').eq_or_lt with h | h
      · rw [← h]; simp
      · nlinarith [(hb i (mem_range.1 hi') h).2]

/-- **C72 (frequency, one geo).** National data keep their frequency. -/
theorem national_frequency_one (r : Raw) (hG : r.G = 1) (reach freq : Panel) (g t : ℕ) :
    r.nationalFrequency reach freq g t = freq g (r.lead + t) := by
  have hn : r.national = true := (national_iff r).2 hG
  simp [Raw.nationalFrequency, hn, truncate]

/-! ### Totals -/

/-- **C72 (totals).** A summed national series has the same total as the geos in the modelled
periods. -/
theorem national_total (r : Raw) (x : Panel) :
    ∑ t ∈ range r.T, r.nationalSum (truncate r.lead x) 0 t
      = ∑ g ∈ range r.G, ∑ t ∈ range r.T, x g (r.lead + t) := by
  by_cases hG : r.G = 1
  · have hn : r.national = true := (national_iff r).2 hG
    simp [Raw.nationalSum, hn, hG, truncate]
  · have hn : r.national = false := by simpa [Raw.national] using hG
    simp only [Raw.nationalSum, hn, Bool.false_eq_true, if_false, sumGeos_eq, truncate]
    exact sum_comm

/-! ### Scaling -/

/-- **C72 (scale).** Scaled media per head, without the zeros, have median one. -/
theorem scaled_median_one (G T : ℕ) (x : Panel) (pop : ℕ → ℝ) (y : Panel)
    (h : scaleMedia G T pop x = some y) (hx : ∀ g < G, ∀ t < T, 0 ≤ x g t)
    (hp : ∀ g < G, 0 < pop g) :
    median ((cells G T y).filter fun v => decide (v ≠ 0)) = some 1 := by
  unfold scaleMedia at h
  rw [Option.map_eq_some_iff] at h
  obtain ⟨med, hm, rfl⟩ := h
  have hpos := mediaMedian_pos G T x pop med hm hx fun g hg => (hp g hg).le
  have e : cells G T (mediaForward med pop x)
      = (cells G T fun g t => divideNoNan (x g t) (pop g)).map (med⁻¹ * ·) := by
    rw [← cells_mul]
    apply cells_congr
    intro g hg t _
    simp only [mediaForward, mediaScale, divideNoNan, ne_eq, (hp g hg).ne', not_false_eq_true,
      if_true]
    rw [div_mul_eq_div_div, div_eq_inv_mul]
  rw [e, filter_mul _ (inv_pos.2 hpos).ne', median_mul _ (inv_pos.2 hpos)]
  change (mediaMedian G T x pop).map _ = _
  rw [hm, Option.map_some, inv_mul_cancel₀ hpos.ne']

/-- **C72 (units).** The geo-level and national data sets do not depend on the units in which media,
reach and frequency are counted. -/
theorem units_free (r : Raw) (k f : ℝ) (hk : 0 < k) (hf : 0 < f) :
    (inUnits r k f).geoVars = r.geoVars ∧ (inUnits r k f).nationalVars = r.nationalVars := by
  have hm : ∀ x : Panel, r.mediaScaled (fun g t => k * x g t) = r.mediaScaled x := by
    intro x
    unfold Raw.mediaScaled
    rw [scaleMedia_mul _ _ k hk]
  have hi : ∀ x : Panel × Panel, r.impressions (fun g t => k * x.1 g t) (fun g t => f * x.2 g t)
      = fun g t => k * f * r.impressions x.1 x.2 g t := by
    intro x
    funext g t
    simp only [Raw.impressions, truncate]
    ring
  have hr : ∀ x : Panel × Panel, r.rfScaled (fun g t => k * x.1 g t, fun g t => f * x.2 g t)
      = r.rfScaled x := by
    intro x
    unfold Raw.rfScaled
    simp only [hi x]
    rw [scaleMedia_mul _ _ (k * f) (mul_pos hk hf)]
  have hs : ∀ (c : ℝ) (x : Panel), sumGeos r.G (fun g t => c * x g t)
      = fun g t => c * sumGeos r.G x g t := by
    intro c x
    funext g t
    rw [sumGeos_eq, sumGeos_eq, mul_sum]
  have hnm : ∀ x : Panel, r.nationalMediaScaled (fun g t => k * x g t) = r.nationalMediaScaled x := by
    intro x
    unfold Raw.nationalMediaScaled
    rw [hm]
    have : truncate r.lead (fun g t => k * x g t) = fun g t => k * truncate r.lead x g t := rfl
    rw [this, hs, scaleMedia_mul _ _ k hk]
  have hnr : ∀ x : Panel × Panel,
      r.nationalRfScaled (fun g t => k * x.1 g t, fun g t => f * x.2 g t) = r.nationalRfScaled x := by
    intro x
    unfold Raw.nationalRfScaled
    rw [hr]
    simp only [hi x]
    rw [hs, scaleMedia_mul _ _ (k * f) (mul_pos hk hf)]
  constructor
  · unfold Raw.geoVars
    congr 1
    have a1 : each (fun _ => (inUnits r k f).mediaScaled) (inUnits r k f).media
        = each (fun _ => r.mediaScaled) r.media :=
      each_map (fun _ => r.mediaScaled) (fun _ => r.mediaScaled) (fun x g t => k * x g t) r.media
        fun p _ => hm p.2
    have a2 : each (fun _ => (inUnits r k f).rfScaled) (inUnits r k f).rf
        = each (fun _ => r.rfScaled) r.rf :=
      each_map (fun _ => r.rfScaled) (fun _ => r.rfScaled)
        (fun x => (fun g t => k * x.1 g t, fun g t => f * x.2 g t)) r.rf fun p _ => hr p.2
    have a3 : each (fun _ => (inUnits r k f).mediaScaled) (inUnits r k f).organicMedia
        = each (fun _ => r.mediaScaled) r.organicMedia :=
      each_map (fun _ => r.mediaScaled) (fun _ => r.mediaScaled) (fun x g t => k * x g t)
        r.organicMedia fun p _ => hm p.2
    have a4 : each (fun _ => (inUnits r k f).rfScaled) (inUnits r k f).organicRf
        = each (fun _ => r.rfScaled) r.organicRf :=
      each_map (fun _ => r.rfScaled) (fun _ => r.rfScaled)
        (fun x => (fun g t => k * x.1 g t, fun g t => f * x.2 g t)) r.organicRf fun p _ => hr p.2
    rw [a1, a2, a3, a4]
    rfl
  · unfold Raw.nationalVars
    congr 1
    have a1 : each (fun _ => (inUnits r k f).nationalMediaScaled) (inUnits r k f).media
        = each (fun _ => r.nationalMediaScaled) r.media :=
      each_map (fun _ => r.nationalMediaScaled) (fun _ => r.nationalMediaScaled)
        (fun x g t => k * x g t) r.media fun p _ => hnm p.2
    have a2 : each (fun _ => (inUnits r k f).nationalRfScaled) (inUnits r k f).rf
        = each (fun _ => r.nationalRfScaled) r.rf :=
      each_map (fun _ => r.nationalRfScaled) (fun _ => r.nationalRfScaled)
        (fun x => (fun g t => k * x.1 g t, fun g t => f * x.2 g t)) r.rf fun p _ => hnr p.2
    have a3 : each (fun _ => (inUnits r k f).nationalMediaScaled) (inUnits r k f).organicMedia
        = each (fun _ => r.nationalMediaScaled) r.organicMedia :=
      each_map (fun _ => r.nationalMediaScaled) (fun _ => r.nationalMediaScaled)
        (fun x g t => k * x g t) r.organicMedia fun p _ => hnm p.2
    have a4 : each (fun _ => (inUnits r k f).nationalRfScaled) (inUnits r k f).organicRf
        = each (fun _ => r.nationalRfScaled) r.organicRf :=
      each_map (fun _ => r.nationalRfScaled) (fun _ => r.nationalRfScaled)
        (fun x => (fun g t => k * x.1 g t, fun g t => f * x.2 g t)) r.organicRf fun p _ => hnr p.2
    rw [a1, a2, a3, a4]
    rfl

/-! ### Controls and other treatments -/

theorem centre_eq (T : ℕ) (x : Panel) (g t : ℕ) :
    centre 1 T x g t = divideNoNan (x g t - mean 1 T x) (std 1 T x) := by
  simp [centre, csForward, csInit]

theorem centre_standardised (T : ℕ) (hT : 0 < T) (x : Panel) :
    Standardised T fun t => centre 1 T x 0 t := by
  have h := standardised 1 T x (by omega)
  simp only [range_one, sum_singleton, one_mul] at h
  unfold Standardised
  simp only [centre_eq]
  refine ⟨h.1, ?_⟩
  rintro ⟨t, _, t', _, hne⟩
  have hs : std 1 T x ≠ 0 := by
    intro h0
    apply hne
    simp [divideNoNan, h0]
  have h2 := h.2 hs
  have hT' : (T : ℝ) ≠ 0 := by exact_mod_cast hT.ne'
  rw [div_eq_one_iff_eq hT'] at h2
  exact h2

theorem centre_affine (T : ℕ) (hT : 0 < T) (x : Panel) :
    0 ≤ std 1 T x ∧ ∀ t < T, x 0 t = mean 1 T x + std 1 T x * centre 1 T x 0 t := by
  refine ⟨std_nonneg 1 T x, ?_⟩
  intro t ht
  rw [centre_eq]
  by_cases hs : std 1 T x = 0
  · have := (std_zero_iff 1 T x (by omega)).1 hs 0 (by norm_num) t ht
    rw [hs, zero_mul, add_zero, this]
  · rw [divideNoNan, if_pos hs, mul_div_cancel₀ _ hs]
    ring

/-- **C72 (controls).** The national series of a control variable or non-media treatment is what the
user's function for its name, or else the sum, makes of the values of all geos at each time,
standardised. -/
theorem national_variable (r : Raw) (hG : r.G ≠ 1) (hT : 0 < r.T)
    (fs : List (String × (List ℝ → ℝ))) (n : String) (x : Panel × Option Bool) :
    Standardised r.T (fun t => r.nationalVariableScaled fs n x 0 t) ∧
    ∃ a b : ℝ, 0 ≤ b ∧ ∀ t < r.T, (match fs.lookup n with
      | some f => f ((List.range r.G).map fun g => x.1 g t)
      | none => ∑ g ∈ range r.G, x.1 g t) = a + b * r.nationalVariableScaled fs n x 0 t := by
  have hn : r.national = false := by simpa [Raw.national] using hG
  simp only [Raw.nationalVariableScaled, hn, Bool.false_eq_true, if_false]
  have ha := centre_affine r.T hT (aggregate r.G fs n x.1)
  refine ⟨centre_standardised r.T hT _, mean 1 r.T (aggregate r.G fs n x.1), _, ha.1, ?_⟩
  intro t ht
  rw [← ha.2 t ht]
  unfold aggregate
  cases fs.lookup n with
  | none => exact (list_sum_range r.G fun g => x.1 g t).symm
  | some f => rfl

/-- **C72 (KPI).** The national KPI is the sum over geos, standardised. -/
theorem national_kpi (r : Raw) (hG : r.G ≠ 1) (hT : 0 < r.T) :
    Standardised r.T (fun t => r.nationalKpiScaled 0 t) ∧
    ∃ a b : ℝ, 0 ≤ b ∧ ∀ t < r.T,
      ∑ g ∈ range r.G, r.kpi g t = a + b * r.nationalKpiScaled 0 t := by
  have hn : r.national = false := by simpa [Raw.national] using hG
  simp only [Raw.nationalKpiScaled, hn, Bool.false_eq_true, if_false]
  have ha := centre_affine r.T hT (sumGeos r.G r.kpi)
  refine ⟨centre_standardised r.T hT _, mean 1 r.T (sumGeos r.G r.kpi), _, ha.1, ?_⟩
  intro t ht
  rw [← ha.2 t ht, sumGeos_eq]

/-! ### What the data sets hold -/

theorem join_six {α : Type*} (a b c d e f : Option (List α)) (l : List α) :
    join [a, b, c, d, e, f] = some l ↔ ∃ a' b' c' d' e' f', a = some a' ∧ b = some b' ∧
      c = some c' ∧ d = some d' ∧ e = some e' ∧ f = some f' ∧
      l = a' ++ (b' ++ (c' ++ (d' ++ (e' ++ (f' ++ []))))) := by
  cases a <;> cases b <;> cases c <;> cases d <;> cases e <;> cases f <;>
    simp [join, eq_comm]

theorem each_names {α β : Type*} (f : String → α → Option β) (l : List (String × α))
    (m : List (String × β)) (h : each f l = some m) : m.map Prod.fst = l.map Prod.fst := by
  rw [each_some] at h
  induction h with
  | nil => rfl
  | cons h1 _ ih => rw [List.map_cons, List.map_cons, h1.1, ih]

theorem each_mem {α β : Type*} (f : String → α → Option β) (l : List (String × α))
    (m : List (String × β)) (h : each f l = some m) (p : String × α) (hp : p ∈ l) :
    ∃ b, f p.1 p.2 = some b ∧ (p.1, b) ∈ m := by
  rw [each_some] at h
  induction h with
  | nil => simp at hp
  | @cons q s _ _ h1 _ ih =>
    rcases List.mem_cons.1 hp with rfl | hp
    · exact ⟨s.2, h1.2, by rw [← h1.1]; exact List.mem_cons_self⟩
    · obtain ⟨b, hb, hm⟩ := ih hp
      exact ⟨b, hb, List.mem_cons_of_mem _ hm⟩

/-- **C72 (contents).** The geo-level and national data sets hold the same variables, all treatments
and controls, in the same order. -/
theorem same_names (r : Raw) (l m : List (String × Panel)) (hl : r.geoVars = some l)
    (hm : r.nationalVars = some m) : l.map Prod.fst = names r ∧ m.map Prod.fst = names r := by
  constructor
  · obtain ⟨a, b, c, d, e, f, h1, h2, h3, h4, h5, h6, rfl⟩ := (join_six _ _ _ _ _ _ _).1 hl
    simp only [List.map_append, each_names _ _ _ h1, each_names _ _ _ h2, each_names _ _ _ h3,
      each_names _ _ _ h4, each_names _ _ _ h5, each_names _ _ _ h6, names, List.map_nil]
  · obtain ⟨a, b, c, d, e, f, h1, h2, h3, h4, h5, h6, rfl⟩ := (join_six _ _ _ _ _ _ _).1 hm
    simp only [List.map_append, each_names _ _ _ h1, each_names _ _ _ h2, each_names _ _ _ h3,
      each_names _ _ _ h4, each_names _ _ _ h5, each_names _ _ _ h6, names, List.map_nil]

/-- **C72 (contents).** Each national series is made from the variable of the same name: controls and
non-media treatments with their own aggregation functions. -/
theorem national_contents (r : Raw) (m : List (String × Panel)) (hm : r.nationalVars = some m) :
    (∀ p ∈ r.media ++ r.organicMedia, ∃ y, r.nationalMediaScaled p.2 = some y ∧ (p.1, y) ∈ m) ∧
    (∀ p ∈ r.rf ++ r.organicRf, ∃ y, r.nationalRfScaled p.2 = some y ∧ (p.1, y) ∈ m) ∧
    (∀ p ∈ r.controls, (p.1, r.nationalVariableScaled r.aggControls p.1 p.2) ∈ m) ∧
    (∀ p ∈ r.nonMedia, (p.1, r.nationalVariableScaled r.aggNonMedia p.1 p.2) ∈ m) := by
  obtain ⟨a, b, c, d, e, f, h1, h2, h3, h4, h5, h6, rfl⟩ := (join_six _ _ _ _ _ _ _).1 hm
  refine ⟨?_, ?_, ?_, ?_⟩
  · intro p hp
    rcases List.mem_append.1 hp with hp | hp
    · obtain ⟨y, hy, hmem⟩ := each_mem _ _ _ h1 p hp
      exact ⟨y, hy, by simp [hmem]⟩
    · obtain ⟨y, hy, hmem⟩ := each_mem _ _ _ h3 p hp
      exact ⟨y, hy, by simp [hmem]⟩
  · intro p hp
    rcases List.mem_append.1 hp with hp | hp
    · obtain ⟨y, hy, hmem⟩ := each_mem _ _ _ h2 p hp
      exact ⟨y, hy, by simp [hmem]⟩
    · obtain ⟨y, hy, hmem⟩ := each_mem _ _ _ h4 p hp
      exact ⟨y, hy, by simp [hmem]⟩
  · intro p hp
    obtain ⟨y, hy, hmem⟩ := each_mem _ _ _ h5 p hp
    cases hy
    simp [hmem]
  · intro p hp
    obtain ⟨y, hy, hmem⟩ := each_mem _ _ _ h6 p hp
    cases hy
    simp [hmem]

/-- **C72 (contents).** Each geo-level series is the variable of the same name, scaled. -/
theorem geo_contents (r : Raw) (m : List (String × Panel)) (hm : r.geoVars = some m) :
    (∀ p ∈ r.media ++ r.organicMedia, ∃ y, r.mediaScaled p.2 = some y ∧ (p.1, y) ∈ m) ∧
    (∀ p ∈ r.rf ++ r.organicRf, ∃ y, r.rfScaled p.2 = some y ∧ (p.1, y) ∈ m) ∧
    (∀ p ∈ r.controls ++ r.nonMedia, (p.1, r.variableScaled p.2) ∈ m) := by
  obtain ⟨a, b, c, d, e, f, h1, h2, h3, h4, h5, h6, rfl⟩ := (join_six _ _ _ _ _ _ _).1 hm
  refine ⟨?_, ?_, ?_⟩
  · intro p hp
    rcases List.mem_append.1 hp with hp | hp
    · obtain ⟨y, hy, hmem⟩ := each_mem _ _ _ h1 p hp
      exact ⟨y, hy, by simp [hmem]⟩
    · obtain ⟨y, hy, hmem⟩ := each_mem _ _ _ h3 p hp
      exact ⟨y, hy, by simp [hmem]⟩
  · intro p hp
    rcases List.mem_append.1 hp with hp | hp
    · obtain ⟨y, hy, hmem⟩ := each_mem _ _ _ h2 p hp
      exact ⟨y, hy, by simp [hmem]⟩
    · obtain ⟨y, hy, hmem⟩ := each_mem _ _ _ h4 p hp
      exact ⟨y, hy, by simp [hmem]⟩
  · intro p hp
    rcases List.mem_append.1 hp with hp | hp
    · obtain ⟨y, hy, hmem⟩ := each_mem _ _ _ h5 p hp
      cases hy
      simp [hmem]
    · obtain ⟨y, hy, hmem⟩ := each_mem _ _ _ h6 p hp
      cases hy
      simp [hmem]

/-- **C72 (proportional).** A scaled geo-level media series is the media per head in the modelled
periods divided by one number, the same for all geos and periods. -/
theorem media_per_head (r : Raw) (x y : Panel) (h : r.mediaScaled x = some y) :
    ∃ med, mediaMedian r.G (r.lead + r.T) x r.population = some med ∧
      ∀ g t, y g t = x g (r.lead + t) / (r.population g * med) := by
  unfold Raw.mediaScaled scaleMedia at h
  rw [Option.map_map, Option.map_eq_some_iff] at h
  obtain ⟨med, hm, rfl⟩ := h
  exact ⟨med, hm, fun g t => rfl⟩

/-- **C72 (proportional, national).** A scaled national media series is the sum over geos in the
modelled periods divided by the median of its non-zero values; likewise for impressions. -/
theorem national_media_sum (r : Raw) (hG : r.G ≠ 1) (x y : Panel)
    (h : r.nationalMediaScaled x = some y) :
    ∃ med, median (((List.range r.T).map fun t => ∑ g ∈ range r.G, x g (r.lead + t)).filter
        fun v => decide (v ≠ 0)) = some med ∧
      ∀ t, y 0 t = (∑ g ∈ range r.G, x g (r.lead + t)) / med := by
  have hn : r.national = false := by simpa [Raw.national] using hG
  unfold Raw.nationalMediaScaled scaleMedia at h
  rw [hn] at h
  simp only [Bool.false_eq_true, if_false] at h
  rw [Option.map_eq_some_iff] at h
  obtain ⟨med, hm, rfl⟩ := h
  refine ⟨med, ?_, ?_⟩
  · rw [← hm]
    unfold mediaMedian cells
    simp only [List.range_one, List.flatMap_cons, List.flatMap_nil, List.append_nil, sumGeos_eq,
      truncate, divideNoNan, ones, ne_eq, one_ne_zero, not_false_eq_true, if_true, div_one]
  · intro t
    simp only [mediaForward, mediaScale, ones, one_mul, sumGeos_eq, truncate]

/-- **C72 (proportional, national impressions).** -/
theorem national_rf_sum (r : Raw) (hG : r.G ≠ 1) (x : Panel × Panel) (y : Panel)
    (h : r.nationalRfScaled x = some y) :
    ∃ med, median (((List.range r.T).map fun t =>
        ∑ g ∈ range r.G, x.1 g (r.lead + t) * x.2 g (r.lead + t)).filter
        fun v => decide (v ≠ 0)) = some med ∧
      ∀ t, y 0 t = (∑ g ∈ range r.G, x.1 g (r.lead + t) * x.2 g (r.lead + t)) / med := by
  have hn : r.national = false := by simpa [Raw.national] using hG
  unfold Raw.nationalRfScaled scaleMedia at h
  rw [hn] at h
  simp only [Bool.false_eq_true, if_false] at h
  rw [Option.map_eq_some_iff] at h
  obtain ⟨med, hm, rfl⟩ := h
  refine ⟨med, ?_, ?_⟩
  · rw [← hm]
    unfold mediaMedian cells
    simp only [List.range_one, List.flatMap_cons, List.flatMap_nil, List.append_nil, sumGeos_eq,
      truncate, divideNoNan, ones, ne_eq, one_ne_zero, not_false_eq_true, if_true, div_one,
      Raw.impressions]
  · intro t
    simp only [mediaForward, mediaScale, ones, one_mul, sumGeos_eq, truncate, Raw.impressions]

/-- **C72 (impressions per head).** -/
theorem impressions_per_head (r : Raw) (hG : r.G ≠ 1) (x : Panel × Panel) (y : Panel)
    (h : r.rfScaled x = some y) :
    ∃ med, mediaMedian r.G r.T (fun g t => x.1 g (r.lead + t) * x.2 g (r.lead + t)) r.population
        = some med ∧
      ∀ g t, y g t = x.1 g (r.lead + t) * x.2 g (r.lead + t) / (r.population g * med) := by
  have hn : r.national = false := by simpa [Raw.national] using hG
  unfold Raw.rfScaled scaleMedia at h
  rw [hn, Option.map_eq_some_iff] at h
  obtain ⟨med, hm, rfl⟩ := h
  exact ⟨med, hm, fun g t => rfl⟩

/-- **C72 (one geo).** For national data the two data sets are the same. -/
theorem national_same (r : Raw) (hG : r.G = 1) : r.nationalVars = r.geoVars := by
  have hn : r.national = true := (national_iff r).2 hG
  have e1 : r.nationalMediaScaled = r.mediaScaled := by
    funext x
    simp only [Raw.nationalMediaScaled, hn, if_true]
  have e2 : r.nationalRfScaled = r.rfScaled := by
    funext x
    simp only [Raw.nationalRfScaled, hn, if_true]
  unfold Raw.nationalVars Raw.geoVars
  simp only [e1, e2, Raw.nationalVariableScaled, hn, if_true]

/-! ### When a data set cannot be made -/

/-- **C72 (failure).** With populations above zero the geo-level data set exists exactly if every
media channel has a non-zero value in some media period and every reach and frequency channel has
impressions in some modelled period. -/
theorem geo_defined_iff (r : Raw) (hp : ∀ g < r.G, 0 < r.population g) :
    r.geoVars ≠ none ↔
      (∀ p ∈ r.media ++ r.organicMedia, ∃ g < r.G, ∃ t < r.lead + r.T, p.2 g t ≠ 0) ∧
      (∀ p ∈ r.rf ++ r.organicRf, ∃ g < r.G, ∃ t < r.T,
        p.2.1 g (r.lead + t) ≠ 0 ∧ p.2.2 g (r.lead + t) ≠ 0) := by
  have hm : ∀ x : Panel, r.mediaScaled x = none ↔ ∀ g < r.G, ∀ t < r.lead + r.T, x g t = 0 := by
    intro x
    unfold Raw.mediaScaled
    rw [Option.map_eq_none_iff, scaleMedia_none]
    exact ⟨fun h g hg t ht => (h g hg t ht).resolve_right (hp g hg).ne',
      fun h g hg t ht => Or.inl (h g hg t ht)⟩
  have hr : ∀ x : Panel × Panel, r.rfScaled x = none ↔
      ∀ g < r.G, ∀ t < r.T, x.1 g (r.lead + t) = 0 ∨ x.2 g (r.lead + t) = 0 := by
    intro x
    unfold Raw.rfScaled
    rw [scaleMedia_none]
    simp only [Raw.impressions, truncate, mul_eq_zero]
    refine ⟨fun h g hg t ht => (h g hg t ht).resolve_right ?_,
      fun h g hg t ht => Or.inl (h g hg t ht)⟩
    split_ifs
    · exact one_ne_zero
    · exact (hp g hg).ne'
  unfold Raw.geoVars
  rw [Ne, join_none]
  simp only [List.mem_cons, List.not_mem_nil, or_false, eq_comm (a := (none : Option (List _))),
    each_none, reduceCtorEq, and_false, exists_false, hm, hr, List.mem_append]
  push Not
  constructor
  · rintro ⟨h1, h2, h3, h4⟩
    exact ⟨fun p hp => hp.elim (h1 p) (h3 p), fun p hp => hp.elim (h2 p) (h4 p)⟩
  · rintro ⟨h1, h2⟩
    exact ⟨fun p hp => h1 p (Or.inl hp), fun p hp => h2 p (Or.inl hp),
      fun p hp => h1 p (Or.inr hp), fun p hp => h2 p (Or.inr hp)⟩

/-- **C72 (failure, national).** With non-negative data the national data set of several geos exists
exactly if every media channel, too, is active in some modelled period. -/
theorem national_defined_iff (r : Raw) (hG : r.G ≠ 1)
    (h0 : ∀ p ∈ r.media ++ r.organicMedia, ∀ g t, 0 ≤ p.2 g t)
    (h1 : ∀ p ∈ r.rf ++ r.organicRf, ∀ g t, 0 ≤ p.2.1 g t ∧ 0 ≤ p.2.2 g t) :
    r.nationalVars ≠ none ↔
      (∀ p ∈ r.media ++ r.organicMedia, ¬ Silent r p.2) ∧
      (∀ p ∈ r.rf ++ r.organicRf, ∃ g < r.G, ∃ t < r.T,
        p.2.1 g (r.lead + t) ≠ 0 ∧ p.2.2 g (r.lead + t) ≠ 0) := by
  have hn : r.national = false := by simpa [Raw.national] using hG
  have key : ∀ x : Panel, (∀ g t, 0 ≤ x g t) → (scaleMedia 1 r.T ones (sumGeos r.G x) = none ↔
      ∀ g < r.G, ∀ t < r.T, x g t = 0) := by
    intro x hx
    rw [scaleMedia_none]
    simp only [sumGeos_eq, ones, one_ne_zero, or_false, Nat.lt_one_iff, forall_eq]
    constructor
    · intro h g hg t ht
      exact (sum_eq_zero_iff_of_nonneg fun i _ => hx i t).1 (h t ht) g (mem_range.2 hg)
    · intro h t ht
      exact sum_eq_zero fun g hg => h g (mem_range.1 hg) t ht
  have hm : ∀ x : Panel, (∀ g t, 0 ≤ x g t) → (r.nationalMediaScaled x = none ↔ Silent r x) := by
    intro x hx
    simp only [Raw.nationalMediaScaled, hn, Bool.false_eq_true, if_false]
    exact key _ fun g t => hx g _
  have hr : ∀ x : Panel × Panel, (∀ g t, 0 ≤ x.1 g t ∧ 0 ≤ x.2 g t) →
      (r.nationalRfScaled x = none ↔
      ∀ g < r.G, ∀ t < r.T, x.1 g (r.lead + t) = 0 ∨ x.2 g (r.lead + t) = 0) := by
    intro x hx
    simp only [Raw.nationalRfScaled, hn, Bool.false_eq_true, if_false]
    rw [key (r.impressions x.1 x.2) fun g t => mul_nonneg (hx g _).1 (hx g _).2]
    simp only [Raw.impressions, truncate, mul_eq_zero]
  rw [← not_iff_not, not_not]
  unfold Raw.nationalVars
  rw [join_none]
  simp only [List.mem_cons, List.not_mem_nil, or_false, eq_comm (a := (none : Option (List _))),
    each_none, reduceCtorEq, and_false, exists_false]
  rw [not_and_or]
  push Not
  constructor
  · rintro (⟨p, hp, h⟩ | ⟨p, hp, h⟩ | ⟨p, hp, h⟩ | ⟨p, hp, h⟩)
    · have hp' : p ∈ r.media ++ r.organicMedia := List.mem_append_left _ hp
      exact Or.inl ⟨p, hp', (hm p.2 (h0 p hp')).1 h⟩
    · have hp' : p ∈ r.rf ++ r.organicRf := List.mem_append_left _ hp
      exact Or.inr ⟨p, hp', fun g hg t ht => or_iff_not_imp_left.1 ((hr p.2 (h1 p hp')).1 h g hg t ht)⟩
    · have hp' : p ∈ r.media ++ r.organicMedia := List.mem_append_right _ hp
      exact Or.inl ⟨p, hp', (hm p.2 (h0 p hp')).1 h⟩
    · have hp' : p ∈ r.rf ++ r.organicRf := List.mem_append_right _ hp
      exact Or.inr ⟨p, hp', fun g hg t ht => or_iff_not_imp_left.1 ((hr p.2 (h1 p hp')).1 h g hg t ht)⟩
  · rintro (⟨p, hp, h⟩ | ⟨p, hp, h⟩)
    · have h := (hm p.2 (h0 p hp)).2 h
      rcases List.mem_append.1 hp with hp | hp
      · exact Or.inl ⟨p, hp, h⟩
      · exact Or.inr (Or.inr (Or.inl ⟨p, hp, h⟩))
    · have h := (hr p.2 (h1 p hp)).2 fun g hg t ht => or_iff_not_imp_left.2 (h g hg t ht)
      rcases List.mem_append.1 hp with hp | hp
      · exact Or.inr (Or.inl ⟨p, hp, h⟩)
      · exact Or.inr (Or.inr (Or.inr ⟨p, hp, h⟩))

/-! ### Sampling -/

theorem not_ok_of_raises (r : Raw) (s : Eda.Spec) (h : r.raises .multicollinearity = true) :
    r.guard s ≠ .ok () := by
  unfold Raw.guard
  rw [Ne, Eda.Props.guardrail_eq]
  intro hn
  apply hn ⟨.multicollinearity, [⟨.error, .runtimeError⟩]⟩
  · unfold Eda.criticalChecks
    simp [h]
  · simp

/-- **C72 (a silent channel).** A reach and frequency channel without impressions in the modelled
periods stops sampling, whatever the thresholds. -/
theorem silent_rf_stops_sampling (r : Raw) (s : Eda.Spec) (p : String × Panel × Panel)
    (hp : p ∈ r.rf ++ r.organicRf) (h : Silent r p.2.1 ∨ Silent r p.2.2) : r.guard s ≠ .ok () := by
  have hnone : r.rfScaled p.2 = none := by
    unfold Raw.rfScaled
    rw [scaleMedia_none]
    intro g hg t ht
    left
    simp only [Raw.impressions, truncate]
    rcases h with h | h
    · rw [h g hg t ht, zero_mul]
    · rw [h g hg t ht, mul_zero]
  have hgeo : r.geoVars = none := by
    unfold Raw.geoVars
    rw [join_none]
    rcases List.mem_append.1 hp with hp | hp
    · have := (each_none (fun _ => r.rfScaled) r.rf).2 ⟨p, hp, hnone⟩
      simp [this]
    · have := (each_none (fun _ => r.rfScaled) r.organicRf).2 ⟨p, hp, hnone⟩
      simp [this]
  apply not_ok_of_raises
  unfold Raw.raises
  by_cases hG : r.G = 1
  · have hn : r.national = true := (national_iff r).2 hG
    simp only [hn, if_true, national_same r hG, hgeo, Option.isNone_none]
  · have hn : r.national = false := by simpa [Raw.national] using hG
    simp only [hn, Bool.false_eq_true, if_false, hgeo, Option.isNone_none]

/-- **C72 (a silent channel, contrast).** A media channel active only before the modelled periods
makes no check fail. -/
theorem silent_media_no_exception (r : Raw) (hp : ∀ g < r.G, 0 < r.population g)
    (h : ∀ p ∈ r.media ++ r.organicMedia, ∃ g < r.G, ∃ t < r.lead + r.T, p.2 g t ≠ 0)
    (h1 : r.rf = []) (h2 : r.organicRf = []) (c : Eda.CheckType) : r.raises c = false := by
  have hg : r.geoVars ≠ none := by
    rw [geo_defined_iff r hp]
    refine ⟨h, ?_⟩
    rw [h1, h2]
    simp
  have hs : r.geoVars.isNone = false := by
    rw [Option.isNone_eq_false_iff]
    exact Option.isSome_iff_ne_none.2 hg
  cases c with
  | kpiInvariability => rfl
  | multicollinearity | pairwiseCorrelation =>
    unfold Raw.raises
    by_cases hG : r.G = 1
    · simp only [national_same r hG, hs, ite_self]
    · have hn : r.national = false := by simpa [Raw.national] using hG
      simp only [hn, Bool.false_eq_true, if_false, hs]

/-! ### A case -/

/-- Two geos, two modelled periods after one earlier period: an organic reach and frequency channel
was on in the earlier period only. -/
noncomputable def demo : Raw where
  G := 2
  T := 2
  lead := 1
  population g := g + 1
  kpi g t := g + 2 * t
  media := [("tv", fun g t => g + t + 1)]
  rf := [("video", fun g t => g + t + 1, fun g _ => g + 1)]
  organicMedia := []
  organicRf := [("blog", fun g t => if t = 0 then g + 1 else 0, fun _ _ => 1)]
  controls := [("temperature", fun g t => g * t, none)]
  nonMedia := [("price", fun g t => g + t, some true)]
  aggControls := [("temperature", fun l => l.sum / l.length)]
  aggNonMedia := []

/-- **C72 (finding).** A model whose organic reach and frequency channel was on before the modelled
periods only is accepted, yet it cannot be sampled. -/
theorem silent_channel_accepted_not_sampled :
    demo.accepted = true ∧ (∀ s, demo.guard s ≠ .ok ()) ∧
    ∀ s, { demo with organicRf := [], organicMedia := [("blog", (demo.organicRf.map
      fun p => p.2.1).headD fun _ _ => 0)], rf := [] : Raw }.raises s = false := by
  have hpos : ∀ g < 2, (0 : ℝ) < demo.population g := by
    intro g _
    simp only [demo]
    positivity
  have hs : ∀ x : Panel, x 0 0 ≠ 0 → (mediaMedian 2 (1 + 2) x demo.population).isSome = true := by
    intro x hx
    rw [Option.isSome_iff_ne_none, Ne, mediaMedian_none]
    intro h
    exact (h 0 (by norm_num) 0 (by norm_num)).elim hx (hpos 0 (by norm_num)).ne'
  refine ⟨?_, ?_, ?_⟩
  · unfold Raw.accepted
    simp only [demo, List.cons_append, List.nil_append, List.append_nil, List.all_cons,
      List.all_nil, Bool.and_true, Bool.and_eq_true]
    refine ⟨hs _ ?_, hs _ ?_, hs _ ?_⟩ <;> norm_num
  · intro s
    refine silent_rf_stops_sampling demo s
      ("blog", fun g t => if t = 0 then g + 1 else 0, fun _ _ => 1) (by simp [demo]) (Or.inl ?_)
    intro g _ t _
    simp [demo]
  · intro s
    apply silent_media_no_exception
    · exact hpos
    · intro p hp
      simp only [demo, List.map_cons, List.map_nil, List.headD_cons, List.cons_append,
        List.nil_append, List.mem_cons, List.not_mem_nil, or_false] at hp
      rcases hp with rfl | rfl
      · exact ⟨0, by simp [demo], 0, by simp [demo], by norm_num⟩
      · exact ⟨0, by simp [demo], 0, by simp [demo], by norm_num⟩
    · rfl
    · rfl

/-- The hypotheses of the theorems on frequency, controls and existence are met. -/
example : demo.G ≠ 1 ∧ 0 < demo.T ∧ (∀ g < demo.G, 0 < demo.population g) ∧
    (∀ p ∈ demo.rf ++ demo.organicRf, ∀ g t, 0 ≤ p.2.1 g t ∧ 0 ≤ p.2.2 g t) ∧
    (∃ p ∈ demo.rf, ∃ g < demo.G, 0 < p.2.1 g (demo.lead + 0)) := by
  refine ⟨by simp [demo], by simp [demo], ?_, ?_, ?_⟩
  · intro g _
    simp only [demo]
    positivity
  · intro p hp g t
    simp only [demo, List.cons_append, List.nil_append, List.mem_cons, List.not_mem_nil,
      or_false] at hp
    rcases hp with rfl | rfl
    · constructor <;> positivity
    · refine ⟨?_, by norm_num⟩
      dsimp only
      split_ifs <;> positivity
  · refine ⟨_, List.mem_cons_self, 0, by simp [demo], ?_⟩
    norm_num [demo]

/-- The national series of the demonstration without the silent channel exist. -/
example : { demo with organicRf := [] : Raw }.nationalVars ≠ none ∧
    { demo with organicRf := [] : Raw }.geoVars ≠ none := by
  constructor
  · rw [national_defined_iff]
    · simp only [demo, Silent, List.append_nil, List.mem_cons, List.not_mem_nil, or_false,
        forall_eq]
      refine ⟨?_, 0, by norm_num, 0, by norm_num, by norm_num, by norm_num⟩
      intro h
      have := h 0 (by norm_num) 0 (by norm_num)
      norm_num at this
    · simp [demo]
    · intro p hp g t
      simp only [demo, List.append_nil, List.mem_cons, List.not_mem_nil, or_false] at hp
      subst hp
      dsimp only
      positivity
    · intro p hp g t
      simp only [demo, List.append_nil, List.mem_cons, List.not_mem_nil, or_false] at hp
      subst hp
      dsimp only
      constructor <;> positivity
  · rw [geo_defined_iff]
    · simp only [demo, List.append_nil, List.mem_cons, List.not_mem_nil, or_false, forall_eq]
      exact ⟨⟨0, by norm_num, 0, by norm_num, by norm_num⟩,
        0, by norm_num, 0, by norm_num, by norm_num, by norm_num⟩
    · intro g _
      simp only [demo]
      positivity

end Verif.EdaData.Props
