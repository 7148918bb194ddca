import Verif.Model.Spend
import Verif.Spec.Spend
import Verif.Props.Selection
import Mathlib.Algebra.BigOperators.Ring.Finset
import Mathlib.Algebra.BigOperators.Field
import Mathlib.Tactic.FieldSimp
import Mathlib.Tactic.Ring
import Mathlib.Tactic.Linarith
import Mathlib.Tactic.NormNum

/-!
# C29 and C22: spend without geo and time detail, tensors for optimisation
-/

namespace Verif.Spend.Props

open Verif.Mmm Verif.Selection Verif.Selection.Spec Verif.Spend.Spec Finset

/-! ### C29: allocation -/

/-- **C29.** Spend given per channel is allocated over the geos and the last `nTimes` media periods
in proportion to the media units, and adds up to what was given.  It is the only allocation that
does. -/
theorem allocation_proportional (nG nT nM : ℕ) (s : ℕ → ℝ) (u : T3) (c : ℕ) (a : ℕ → ℕ → ℝ)
    (h : allocated nG nT nM (.totals s) u c = some a) :
    IsAllocation nG nT (fun g t => u g (nM - nT + t) c) (s c) a ∧
    ∀ b, IsAllocation nG nT (fun g t => u g (nM - nT + t) c) (s c) b →
      ∀ g < nG, ∀ t < nT, b g t = a g t := by
  simp only [allocated, allocateSpend] at h
  split_ifs at h with h0
  cases h
  simp only [lastTimes, unitTotal] at h0 ⊢
  refine ⟨⟨?_, ?_⟩, ?_⟩
  · intro g _ t _ g' _ t' _
    ring
  · simp_rw [← Finset.mul_sum, ← Finset.sum_div]
    rw [div_self h0, mul_one]
  · intro b hb g hg t ht
    have e : b g t * (∑ g ∈ range nG, ∑ t ∈ range nT, u g (nM - nT + t) c)
        = s c * u g (nM - nT + t) c := by
      rw [← hb.conserved, Finset.sum_mul, Finset.mul_sum]
      apply Finset.sum_congr rfl
      intro g' hg'
      rw [Finset.sum_mul, Finset.mul_sum]
      apply Finset.sum_congr rfl
      intro t' ht'
      exact hb.proportional g hg t ht g' (mem_range.1 hg') t' (mem_range.1 ht')
    field_simp
    rw [e]

/-- **C29.** The allocation exists exactly when the media units of the channel do not sum to zero in
the model period; spend given per geo and time is used as it is. -/
theorem allocation_exists_iff (nG nT nM : ℕ) (s : ℕ → ℝ) (n : ℕ) (s' : T3) (u : T3) (c : ℕ) :
    ((∃ a, allocated nG nT nM (.totals s) u c = some a) ↔
      ∑ g ∈ range nG, ∑ t ∈ range nT, u g (nM - nT + t) c ≠ 0) ∧
    allocated nG nT nM (.cells n s') u c = some fun g t => s' g t c := by
  refine ⟨?_, rfl⟩
  simp only [allocated, allocateSpend, lastTimes, unitTotal]
  split_ifs with h <;> simp [h]

/-- With non-negative units and spend every cell is non-negative, and a cell without units gets no
spend. -/
theorem allocation_nonneg (nG nT nM : ℕ) (s : ℕ → ℝ) (u : T3) (c : ℕ) (a : ℕ → ℕ → ℝ)
    (hs : 0 ≤ s c) (hu : ∀ g t, 0 ≤ u g t c)
    (h : allocated nG nT nM (.totals s) u c = some a) (g t : ℕ) :
    0 ≤ a g t ∧ (u g (nM - nT + t) c = 0 → a g t = 0) := by
  simp only [allocated, allocateSpend] at h
  split_ifs at h with h0
  cases h
  simp only [lastTimes, unitTotal]
  refine ⟨mul_nonneg hs (div_nonneg (hu _ _) (sum_nonneg fun _ _ => sum_nonneg fun _ _ => hu _ _)),
    fun e => ?_⟩
  rw [e]; simp

/-- Two geos, media periods 0 to 2 of which the last two are in the model: 30 is split 1 : 2 : 3 : 0. -/
noncomputable def exampleUnits : T3 := fun g t _ => if g = 0 then t else if t = 1 then 3 else 0

example : ∃ a, allocated 2 2 3 (.totals fun _ => 30) exampleUnits 0 = some a ∧
    a 0 0 = 5 ∧ a 0 1 = 10 ∧ a 1 0 = 15 ∧ a 1 1 = 0 := by
  have e : unitTotal 2 2 (lastTimes 3 2 exampleUnits) 0 = 6 := by
    simp only [unitTotal, lastTimes, exampleUnits, Finset.sum_range_succ, Finset.sum_range_zero]
    norm_num
  refine ⟨_, by simp only [allocated, allocateSpend, e]; rw [if_neg (by norm_num)], ?_⟩
  simp only [lastTimes, exampleUnits]
  norm_num

/-- **C29 (negation).** A channel with spend but without media units in the model period gets no
allocation: its cells are not finite, and neither is its aggregated spend, although the total was
given. -/
theorem no_units_no_allocation (nG nT nM : ℕ) (s : ℕ → ℝ) (u : T3) (c : ℕ)
    (cal : Option (ℕ → ℕ → Bool)) (hu : ∀ g < nG, ∀ t < nT, u g (nM - nT + t) c = 0) :
    allocated nG nT nM (.totals s) u c = none ∧
    aggregateSpend nG nT nM (.totals s) u cal c = none := by
  have h : ¬ ∃ a, allocated nG nT nM (.totals s) u c = some a := by
    rw [(allocation_exists_iff nG nT nM s 0 u u c).1, not_not]
    exact sum_eq_zero fun g hg => sum_eq_zero fun t ht => hu g (mem_range.1 hg) t (mem_range.1 ht)
  have e : allocated nG nT nM (.totals s) u c = none := by
    cases h' : allocated nG nT nM (.totals s) u c with
    | none => rfl
    | some a => exact absurd ⟨a, h'⟩ h
  exact ⟨e, by simp [aggregateSpend, e]⟩

/-! ### C29: aggregation -/

/-- **C29 (aggregation in the input data).** The aggregated spend of a channel is the sum of its
allocated cells; with a calibration period, of the cells of the periods marked for the channel, where
the marks are those of the last `nTimes` media periods. -/
theorem aggregate_is_sum (nG nT nM : ℕ) (sp : ChannelSpend) (u : T3) (c : ℕ) (a : ℕ → ℕ → ℝ)
    (h : allocated nG nT nM sp u c = some a) (cal : ℕ → ℕ → Bool) :
    aggregateSpend nG nT nM sp u none c = some (∑ g ∈ range nG, ∑ t ∈ range nT, a g t) ∧
    aggregateSpend nG nT nM sp u (some cal) c =
      some (∑ g ∈ range nG, ∑ t ∈ range nT with cal (nM - nT + t) c = true, a g t) := by
  refine ⟨by simp [aggregateSpend, h], ?_⟩
  simp only [aggregateSpend, h, Option.map_some]
  simp [Finset.sum_filter]

/-- **C29.** Without a calibration period, aggregating spend given per channel returns what was
given. -/
theorem aggregate_totals (nG nT nM : ℕ) (s : ℕ → ℝ) (u : T3) (c : ℕ) (x : ℝ)
    (h : aggregateSpend nG nT nM (.totals s) u none c = some x) : x = s c := by
  cases ha : allocated nG nT nM (.totals s) u c with
  | none => simp [aggregateSpend, ha] at h
  | some a =>
    rw [(aggregate_is_sum nG nT nM _ u c a ha fun _ _ => true).1] at h
    cases h
    exact (allocation_proportional nG nT nM s u c a ha).1.conserved

example : aggregateSpend 2 2 3 (.totals fun _ => 30) exampleUnits
    (some fun t _ => decide (t = 2)) 0 = some 10 := by
  have e : unitTotal 2 2 (lastTimes 3 2 exampleUnits) 0 = 6 := by
    simp only [unitTotal, lastTimes, exampleUnits, Finset.sum_range_succ, Finset.sum_range_zero]
    norm_num
  simp only [aggregateSpend, allocated, allocateSpend, e]
  rw [if_neg (by norm_num)]
  simp only [lastTimes, exampleUnits, Finset.sum_range_succ, Finset.sum_range_zero]
  norm_num

open Classical in
/-- **C29 (aggregation over a selection).** For any accepted selections of geos and times, the
aggregated spend reported by the analyzer is the sum over the selected cells of the allocated spend,
whether spend was given per channel or per geo and time.  (The analyzer computes it from cost per
unit; the input data from proportions.) -/
theorem aggregated_spend_is_sum (norm : String → Option String) (geos times : List String)
    (gsel : Option (List String)) (tsel : Option (List Item)) (gi ti : Option (List ℕ))
    (hg : resolveGeos geos gsel = .ok gi)
    (ht : resolveTimes norm times times.length tsel = .ok ti)
    (nM : ℕ) (sp : ChannelSpend) (hn : ∀ n s, sp = .cells n s → n = times.length)
    (u : T3) (c : ℕ) :
    imputeAggregate geos.length times.length nM nM sp u gi ti true c
      = (allocated geos.length times.length nM sp u c).map fun a =>
          [∑ g ∈ range geos.length with geoSelected geos gsel g,
            ∑ t ∈ range times.length with timeSelected norm times tsel t, a g t] := by
  cases sp with
  | cells n s =>
    obtain rfl := hn n s rfl
    simp only [imputeAggregate, allocated, Option.map_some]
    rw [Verif.Selection.Props.aggregate_selected norm geos times gsel tsel gi ti hg ht]
    rfl
  | totals s =>
    simp only [imputeAggregate, allocated, allocateSpend, if_true]
    split_ifs with h0
    · rfl
    · rw [Verif.Selection.Props.aggregate_selected norm geos times gsel tsel gi ti hg ht]
      simp only [List.head?_cons, Option.map_some, List.map_cons, List.map_nil]
      congr 2
      rw [Finset.sum_mul]
      apply Finset.sum_congr rfl
      intro g _
      rw [Finset.sum_mul]
      apply Finset.sum_congr rfl
      intro t _
      ring

/-- **C29 (by time).** With `aggregate_times=False` there is one number per selected time, in order:
the sum over the selected geos of the allocated spend of that time. -/
theorem aggregated_spend_by_time (nG nT nM : ℕ) (sp : ChannelSpend)
    (hn : ∀ n s, sp = .cells n s → n = nT) (u : T3) (gi ti : Option (List ℕ)) (c : ℕ) :
    imputeAggregate nG nT nM nM sp u gi ti false c
      = (allocated nG nT nM sp u c).map fun a =>
          (axis nT ti).map fun t => ((axis nG gi).map fun g => a g t).sum := by
  cases sp with
  | cells n s =>
    obtain rfl := hn n s rfl
    simp only [imputeAggregate, allocated, Option.map_some,
      (Verif.Selection.Props.unaggregated_is_table _ nG _ gi ti).2.2]
    rfl
  | totals s =>
    simp only [imputeAggregate, allocated, allocateSpend, if_true]
    split_ifs with h0
    · rfl
    · rw [(Verif.Selection.Props.unaggregated_is_table _ nG _ gi ti).2.2]
      simp only [List.head?_cons, Option.map_some, List.map_map]
      congr 1
      apply List.map_congr_left
      intro t _
      simp only [Function.comp]
      rw [← List.sum_map_mul_right]
      congr 1
      apply List.map_congr_left
      intro g _
      ring

/-- **C29 (other periods).** With units for another number of periods than the media times, the total
spend of a channel is allocated over all these periods. -/
theorem aggregated_spend_new_periods (nG nT nM uT : ℕ) (h : uT ≠ nM) (s : ℕ → ℝ) (u : T3)
    (gi ti : Option (List ℕ)) (at_ : Bool) (c : ℕ) :
    imputeAggregate nG nT nM uT (.totals s) u gi ti at_ c =
      imputeAggregate nG uT uT uT (.totals s) u gi ti at_ c := by
  have e : lastTimes uT uT u = u := by
    funext g t c
    simp [lastTimes]
  simp only [imputeAggregate, if_neg h, if_true, e]

/-- Media for two times more than before. -/
example : (imputeAggregate 1 2 2 4 (.totals fun _ => 8) (fun _ _ _ => 1) none none false 0) =
    some [2, 2, 2, 2] := by
  rw [aggregated_spend_new_periods _ _ _ _ (by norm_num),
    aggregated_spend_by_time _ _ _ _ (by simp)]
  norm_num [allocated, allocateSpend, unitTotal, lastTimes, axis, List.range_succ]

/-- **C29 (which channels).** `get_aggregated_spend` lists the requested groups of channels that the
model has, media before RF, each channel with the number of its own group and position; requesting
neither group is an error. -/
theorem aggregated_spend_rows (nG nT nM uT : ℕ) (media rf : Option Group) (gi ti : Option (List ℕ))
    (at_ im ir : Bool) (rows : List (String × Option (List ℝ))) :
    getAggregatedSpend nG nT nM uT media rf gi ti at_ im ir = .ok rows ↔
      (im = true ∨ ir = true) ∧
      ∃ ms rs, rows = ms ++ rs ∧
        (∀ g, im = true → media = some g → ms.map Prod.fst = g.names ∧
          ∀ c < g.names.length, (ms.map Prod.snd)[c]? =
            some (imputeAggregate nG nT nM uT g.spend g.units gi ti at_ c)) ∧
        (∀ g, ir = true → rf = some g → rs.map Prod.fst = g.names ∧
          ∀ c < g.names.length, (rs.map Prod.snd)[c]? =
            some (imputeAggregate nG nT nM uT g.spend g.units gi ti at_ c)) ∧
        ((im = false ∨ media = none) → ms = []) ∧ ((ir = false ∨ rf = none) → rs = []) := by
  have key : ∀ (b : Bool) (grp : Option Group) (l : List (String × Option (List ℝ))),
      l = groupRows nG nT nM uT gi ti at_ b grp ↔
      ((∀ g, b = true → grp = some g → l.map Prod.fst = g.names ∧
          ∀ c < g.names.length, (l.map Prod.snd)[c]? =
            some (imputeAggregate nG nT nM uT g.spend g.units gi ti at_ c)) ∧
        ((b = false ∨ grp = none) → l = [])) := by
    intro b grp l
    cases b with
    | false => simp [groupRows]
    | true =>
      cases grp with
      | none => simp [groupRows]
      | some g =>
        simp only [groupRows, if_true, true_implies, Option.some.injEq, forall_eq', reduceCtorEq,
          or_self, false_implies, and_true]
        constructor
        · rintro rfl
          constructor
          · apply List.ext_getElem?
            intro i
            by_cases hi : i < g.names.length
            · simp [hi]
            · simp [hi]
          · intro c hc
            simp [hc]
        · rintro ⟨h1, h2⟩
          have hl : l.length = g.names.length := by rw [← h1]; simp
          apply List.ext_getElem
          · simp [hl]
          · intro i hi1 hi2
            have hi : i < g.names.length := hl ▸ hi1
            have a1 : l[i].1 = g.names[i] := by
              have : (l.map Prod.fst)[i]? = g.names[i]? := by rw [h1]
              simpa [hi1, hi] using this
            have a2 := h2 i hi
            simp only [List.getElem?_map, List.getElem?_eq_getElem hi1, Option.map_some,
              Option.some.injEq] at a2
            simp only [List.getElem_map, List.getElem_range]
            rw [← a2]
            ext1
            · simp [a1, hi]
            · rfl
  have h0 : getAggregatedSpend nG nT nM uT media rf gi ti at_ im ir = .ok rows ↔
      (im = true ∨ ir = true) ∧ rows = groupRows nG nT nM uT gi ti at_ im media
        ++ groupRows nG nT nM uT gi ti at_ ir rf := by
    unfold getAggregatedSpend
    cases im <;> cases ir <;> simp [eq_comm]
  rw [h0]
  apply and_congr_right
  intro _
  constructor
  · rintro rfl
    have a := (key im media _).1 rfl
    have b := (key ir rf _).1 rfl
    exact ⟨_, _, rfl, a.1, b.1, a.2, b.2⟩
  · rintro ⟨ms, rs, rfl, a, b, a', b'⟩
    rw [← (key im media ms).2 ⟨a, a'⟩, ← (key ir rf rs).2 ⟨b, b'⟩]

/-- **C29 (negation).** The input data accept media spend per geo and time together with RF spend per
channel (or the reverse), but the total spend of such data, which broadcasting the priors needs,
raises an error. -/
theorem mixed_spend_has_no_total (m r : Ten ℝ) (h : m.shape.length ≠ r.shape.length) :
    getTotalSpend (some m) (some r) = .error .concatRanks := by
  simp [getTotalSpend, concatLast, h]

/-- **C29.** Otherwise the total spend lists the media channels and then the RF channels. -/
theorem total_spend_entries (lead : List ℕ) (nm nr : ℕ) (m r : Ten ℝ) (hm : m.shape = lead ++ [nm])
    (hr : r.shape = lead ++ [nr]) :
    ∃ t, getTotalSpend (some m) (some r) = .ok t ∧ t.shape = lead ++ [nm + nr] ∧
      ∀ i c, (c < nm → t.data (i ++ [c]) = m.data (i ++ [c])) ∧
        (t.data (i ++ [nm + c]) = r.data (i ++ [c])) := by
  have e : getTotalSpend (some m) (some r) = .ok {
      shape := m.shape.dropLast ++ [m.shape.getLastD 0 + r.shape.getLastD 0]
      data := fun i =>
        if i.getLastD 0 < m.shape.getLastD 0 then m.data i
        else r.data (i.dropLast ++ [i.getLastD 0 - m.shape.getLastD 0]) } := by
    simp only [getTotalSpend, concatLast]
    rw [if_neg (by simp [hm, hr]), if_neg (by simp [hm, hr])]
  refine ⟨_, e, by simp [hm, hr], fun i c => ⟨fun hc => ?_, ?_⟩⟩
  · simp [hm, hc]
  · simp [hm]

example : getTotalSpend (some ⟨[2, 2, 1], fun _ => 1⟩) (some ⟨[1], fun _ => 5⟩)
    = .error .concatRanks := mixed_spend_has_no_total _ _ (by decide)

/-! ### C22: expanding and splitting tensors -/

theorem zipWith_mod_self {i shape : List ℕ} (h : List.Forall₂ (· < ·) i shape) :
    List.zipWith (· % ·) i shape = i := by
  induction h with
  | nil => rfl
  | cons h _ ih => simp [Nat.mod_eq_of_lt h, ih]

theorem forall₂_drop {i shape : List ℕ} (h : List.Forall₂ (· < ·) i shape) (k : ℕ) :
    List.Forall₂ (· < ·) (i.drop k) (shape.drop k) := by
  induction h generalizing k with
  | nil => simp
  | cons h hs ih => cases k with
    | zero => simpa using ⟨h, hs⟩
    | succ k => simpa using ih k

theorem zipWith_one (l : List ℕ) (k : ℕ) (h : l.length = k) :
    List.zipWith (· * ·) (List.replicate k 1) l = l ∧
    List.zipWith (· * ·) l (List.replicate k 1) = l := by
  subst h
  induction l with
  | nil => simp
  | cons a l ih => simp [List.replicate_succ, ih.1, ih.2]

/-- **C22 (expansion).** A tensor is expanded to a shape exactly when it is a scalar or has the last
sizes of that shape; anything else is an error. -/
theorem expand_accepted_iff {α : Type} (t : Ten α) (req : List ℕ) :
    (∃ r, expandTensor t req = .ok r) ↔ t.shape <:+ req := by
  unfold expandTensor
  simp only
  split_ifs with h1 h2 h3
  · simp [h1]
  · simp [List.length_eq_zero_iff.1 h2]
  · simp only [Except.ok.injEq, exists_eq', true_iff]
    exact List.suffix_iff_eq_drop.2 h3.2
  · simp only [reduceCtorEq, exists_false, false_iff]
    intro h
    exact h3 ⟨h.length_le, List.suffix_iff_eq_drop.1 h⟩

/-- **C22 (expansion).** The expanded tensor has the required shape and repeats the given values:
each entry is the given entry at the trailing indices. -/
theorem expand_value {α : Type} (t r : Ten α) (req : List ℕ) (h : expandTensor t req = .ok r) :
    r.shape = req ∧
    ∀ i, InShape i req → r.data i = t.data (i.drop (req.length - t.shape.length)) := by
  unfold expandTensor at h
  simp only at h
  split_ifs at h with h1 h2 h3
  · cases h
    refine ⟨h1, fun i _ => ?_⟩
    simp [h1]
  · cases h
    refine ⟨rfl, fun i hi => ?_⟩
    have : i.length = req.length := hi.length_eq
    simp [h2, ← this]
  · cases h
    obtain ⟨hl, hs⟩ := h3
    have e : req.take (req.length - t.shape.length) ++ t.shape = req := by
      have := List.take_append_drop (req.length - t.shape.length) req
      rwa [← hs] at this
    constructor
    · simp only [tile, addAxes]
      rw [List.zipWith_append (by simp), (zipWith_one _ _ (by simp)).1, (zipWith_one _ _ rfl).2]
      exact e
    · intro i hi
      simp only [tile, addAxes]
      rw [List.drop_zipWith]
      congr 1
      rw [List.drop_left' (by simp)]
      apply zipWith_mod_self
      have := forall₂_drop hi (req.length - t.shape.length)
      rwa [← hs] at this

example : ∃ r, expandTensor (⟨[2], fun i => if i = [0] then 7 else 8⟩ : Ten ℕ) [3, 4, 2] = .ok r ∧
    r.shape = [3, 4, 2] ∧ r.data [2, 3, 0] = 7 ∧ r.data [0, 1, 1] = 8 :=
  ⟨_, rfl, by decide, by decide, by decide⟩

/-- **C22 (by population).** A tensor with the required number of axes is unchanged; one with one axis
less is split over the geos by population, entry by entry, and the parts add up to the entry; any
other number of axes is an error. -/
theorem population_split (nG : ℕ) (pop : ℕ → ℝ) (hp : ∑ g ∈ range nG, pop g ≠ 0) (t : Ten ℝ)
    (req : ℕ) :
    (t.shape.length = req → allocateByPopulation nG pop t req = .ok t) ∧
    (t.shape.length + 1 = req → ∃ r, allocateByPopulation nG pop t req = .ok r ∧
      r.shape = nG :: t.shape ∧
      ∀ i, SplitsByPopulation nG pop (t.data i) fun g => r.data (g :: i)) ∧
    (t.shape.length ≠ req → t.shape.length + 1 ≠ req →
      allocateByPopulation nG pop t req = .error .rank) := by
  unfold allocateByPopulation
  refine ⟨fun h => by rw [if_pos h], fun h => ?_, fun h1 h2 => by rw [if_neg h1, if_pos h2]⟩
  rw [if_neg (by omega), if_neg (by simpa using h)]
  refine ⟨_, rfl, rfl, fun i => ⟨?_, ?_⟩⟩
  · intro g _ k _
    simp only [List.tail_cons, List.headI_cons]
    ring
  · simp only [List.tail_cons, List.headI_cons]
    rw [← Finset.mul_sum, ← Finset.sum_div, div_self hp, mul_one]

/-- Splitting by population determines the parts. -/
theorem population_split_unique (nG : ℕ) (pop : ℕ → ℝ) (hp : ∑ g ∈ range nG, pop g ≠ 0) (x : ℝ)
    (a b : ℕ → ℝ) (ha : SplitsByPopulation nG pop x a) (hb : SplitsByPopulation nG pop x b) :
    ∀ g < nG, a g = b g := by
  intro g hg
  have e : ∀ (a : ℕ → ℝ), SplitsByPopulation nG pop x a →
      a g * ∑ h ∈ range nG, pop h = x * pop g := by
    intro a ha
    rw [← ha.conserved, Finset.mul_sum, Finset.sum_mul]
    exact Finset.sum_congr rfl fun h hh => ha.proportional g hg h (mem_range.1 hh)
  exact mul_right_cancel₀ hp ((e a ha).trans (e b hb).symm)

example : ∃ r, allocateByPopulation 2 (fun g => if g = 0 then 1 else 3) ⟨[1, 1], fun _ => 8⟩ 3 = .ok r ∧
    r.data [0, 0, 0] = 2 ∧ r.data [1, 0, 0] = 6 := by
  refine ⟨_, rfl, ?_, ?_⟩ <;> simp [Finset.sum_range_succ] <;> norm_num

/-! ### C22: tensors for optimisation -/

/-- **C22 (what is accepted).** The combinations accepted by `create_optimization_tensors`: a cost per
unit exactly with one of units and spend, for media and for RF; a frequency only without the optimal
frequency, and then with RF data necessarily; and the sizes of the axes for geos and times of all
tensors as in the model and the given times. -/
theorem flighting_accepted_iff (nG nT : ℕ) (f : Flighting) (opt : Bool) :
    validateFlighting nG nT f opt = .ok () ↔
      (f.cpmu.isSome ↔ (f.media.isSome ∨ f.mediaSpend.isSome)) ∧
      (f.cprf.isSome ↔ (f.rfImpressions.isSome ∨ f.rfSpend.isSome)) ∧
      ¬ (f.media.isSome ∧ f.mediaSpend.isSome) ∧
      ¬ (f.rfImpressions.isSome ∧ f.rfSpend.isSome) ∧
      (opt = true → f.frequency.isNone) ∧
      (opt = false → f.cprf.isSome → f.frequency.isSome) ∧
      (∀ t ∈ [f.cpmu, f.cprf, f.media, f.rfImpressions, f.frequency, f.mediaSpend, f.rfSpend],
        ∀ x, t = some x → (∀ g n c, x.shape = [g, n, c] → g = nG ∧ n = nT) ∧
          (∀ n c, x.shape = [n, c] → n = nT)) ∧
      (∀ x, f.revenuePerKpi = some x → (∀ g n, x.shape = [g, n] → g = nG ∧ n = nT) ∧
          (∀ n, x.shape = [n] → n = nT)) := by
  have hc : ∀ t : Option (Ten ℝ),
      ((channelSizes t).1.any (fun n => n ≠ nG) = false ∧
        (channelSizes t).2.any (fun n => n ≠ nT) = false) ↔
      ∀ x, t = some x → (∀ g n c, x.shape = [g, n, c] → g = nG ∧ n = nT) ∧
          (∀ n c, x.shape = [n, c] → n = nT) := by
    intro t
    cases t with
    | none => simp [channelSizes]
    | some x =>
      obtain ⟨sh, d⟩ := x
      match sh with
      | [] => simp [channelSizes]
      | [a] => simp [channelSizes]
      | [a, b] => simp [channelSizes]
      | [a, b, c] => simp [channelSizes]
      | a :: b :: c :: d :: l => simp [channelSizes]
  have hr : ((revenueSizes f.revenuePerKpi).1.any (fun n => n ≠ nG) = false ∧
        (revenueSizes f.revenuePerKpi).2.any (fun n => n ≠ nT) = false) ↔
      ∀ x, f.revenuePerKpi = some x → (∀ g n, x.shape = [g, n] → g = nG ∧ n = nT) ∧
          (∀ n, x.shape = [n] → n = nT) := by
    cases f.revenuePerKpi with
    | none => simp [revenueSizes]
    | some x =>
      obtain ⟨sh, d⟩ := x
      match sh with
      | [] => simp [revenueSizes]
      | [a] => simp [revenueSizes]
      | [a, b] => simp [revenueSizes]
      | a :: b :: c :: l => simp [revenueSizes]
  have hall : ((allSizes f).any (fun s => s.1.any fun n => n ≠ nG) = false ∧
      (allSizes f).any (fun s => s.2.any fun n => n ≠ nT) = false) ↔
      (∀ t ∈ [f.cpmu, f.cprf, f.media, f.rfImpressions, f.frequency, f.mediaSpend, f.rfSpend],
        ∀ x, t = some x → (∀ g n c, x.shape = [g, n, c] → g = nG ∧ n = nT) ∧
          (∀ n c, x.shape = [n, c] → n = nT)) ∧
      (∀ x, f.revenuePerKpi = some x → (∀ g n, x.shape = [g, n] → g = nG ∧ n = nT) ∧
          (∀ n, x.shape = [n] → n = nT)) := by
    rw [← hr]
    simp only [← hc]
    simp only [allSizes, List.any_append, List.any_map, List.any_cons, List.any_nil, Bool.or_false,
      Bool.or_eq_false_iff, List.mem_cons, List.not_mem_nil, or_false, forall_eq_or_imp, forall_eq,
      Function.comp]
    tauto
  rw [← hall]
  unfold validateFlighting
  cases h1 : f.media.isSome <;> cases h2 : f.mediaSpend.isSome <;> cases h3 : f.cpmu.isSome <;>
    cases h4 : f.rfImpressions.isSome <;> cases h5 : f.rfSpend.isSome <;>
    cases h6 : f.cprf.isSome <;> cases h7 : f.frequency.isSome <;> cases opt <;>
    simp only [← Option.not_isSome, h1, h2, h3, h4, h5, h6, h7] <;>
    simp only [Bool.or_false, Bool.or_true, Bool.and_true, Bool.and_false, Bool.not_true,
      Bool.not_false, if_true, Bool.false_eq_true, if_false, reduceCtorEq, false_iff, true_iff,
      iff_true, iff_false, or_false, false_or, or_true, true_or, or_self, and_false, and_true,
      false_and, true_and, not_true_eq_false, not_false_eq_true, imp_false, true_implies,
      false_implies, Bool.and_self, Bool.or_self, implies_true] <;>
    (cases (allSizes f).any (fun s => s.1.any fun n => n ≠ nG) <;>
      cases (allSizes f).any (fun s => s.2.any fun n => n ≠ nT) <;> simp)

/-- The entry of a per-channel, per-time or full tensor at a `(geo, time, channel)` index. -/
def entryAt (k : Ten ℝ) (i : List ℕ) : ℝ := k.data (i.drop (3 - k.shape.length))

/-- What `create_optimization_tensors` makes of given units or spend `m`, cell by cell: the values
themselves if they have a geo axis; otherwise their split by population. -/
def Distributes (nG nT : ℕ) (pop : ℕ → ℝ) (m : Ten ℝ) (a : List ℕ → ℝ) : Prop :=
  (∃ c, m.shape = [nG, nT, c] ∧ a = m.data) ∨
  (∃ c, m.shape = [nT, c] ∧ ∀ i, SplitsByPopulation nG pop (m.data i) fun g => a (g :: i))

theorem alloc_cases {nG nT : ℕ} {pop : ℕ → ℝ} (hp : ∑ g ∈ range nG, pop g ≠ 0) {m r : Ten ℝ}
    (h : allocateByPopulation nG pop m 3 = .ok r)
    (hs : (∀ g n c, m.shape = [g, n, c] → g = nG ∧ n = nT) ∧ (∀ n c, m.shape = [n, c] → n = nT)) :
    r.shape = [nG, nT, m.shape.getLastD 0] ∧ Distributes nG nT pop m r.data := by
  obtain ⟨h1, h2, h3⟩ := population_split nG pop hp m 3
  obtain ⟨sh, d⟩ := m
  match sh, h1, h2, h3, h, hs with
  | [], _, _, h3, h, _ => rw [h3 (by simp) (by simp)] at h; cases h
  | [a], _, _, h3, h, _ => rw [h3 (by simp) (by simp)] at h; cases h
  | [a, c], _, h2, _, h, hs =>
    obtain ⟨r', e1, e2, e3⟩ := h2 rfl
    rw [e1] at h
    cases h
    obtain rfl := hs.2 a c rfl
    exact ⟨e2, .inr ⟨c, rfl, e3⟩⟩
  | [a, b, c], h1, _, _, h, hs =>
    rw [h1 rfl] at h
    cases h
    obtain ⟨rfl, rfl⟩ := hs.1 a b c rfl
    exact ⟨rfl, .inl ⟨c, rfl, rfl⟩⟩
  | a :: b :: c :: e :: l, _, _, h3, h, _ =>
    rw [h3 (by simp) (by simp)] at h; cases h

theorem bind_ok {ε α β : Type} {x : Except ε α} {f : α → Except ε β} {b : β}
    (h : (x >>= f) = .ok b) : ∃ a, x = .ok a ∧ f a = .ok b := by
  cases x with
  | error e => cases h
  | ok a => exact ⟨a, rfl, h⟩

theorem created_parts {nG nT : ℕ} {pop : ℕ → ℝ} {f : Flighting} {opt : Bool} {r : Created}
    (h : createTensors nG nT pop f opt = .ok r) :
    validateFlighting nG nT f opt = .ok () ∧ mediaPart nG nT pop f = .ok r.media ∧
    rfPart nG nT pop f opt = .ok r.rf ∧
    (match f.revenuePerKpi with
      | none => r.revenuePerKpi = none
      | some v => ∃ v', expandTensor v [nG, nT] = .ok v' ∧ r.revenuePerKpi = some v') := by
  unfold createTensors at h
  obtain ⟨_, h1, h⟩ := bind_ok h
  obtain ⟨m, h2, h⟩ := bind_ok h
  obtain ⟨q, h3, h⟩ := bind_ok h
  cases hv : f.revenuePerKpi with
  | none => rw [hv] at h; cases h; exact ⟨h1, h2, h3, rfl⟩
  | some v =>
    rw [hv] at h
    obtain ⟨v', h4, h⟩ := bind_ok h
    cases h
    exact ⟨h1, h2, h3, v', h4, rfl⟩

theorem sizes_of {nG nT : ℕ} {f : Flighting} {opt : Bool}
    (h : validateFlighting nG nT f opt = .ok ()) {m : Ten ℝ}
    (hm : some m ∈ [f.cpmu, f.cprf, f.media, f.rfImpressions, f.frequency, f.mediaSpend, f.rfSpend]) :
    (∀ g n c, m.shape = [g, n, c] → g = nG ∧ n = nT) ∧ (∀ n c, m.shape = [n, c] → n = nT) :=
  ((flighting_accepted_iff nG nT f opt).1 h).2.2.2.2.2.2.1 _ hm m rfl

/-- **C22 (media units given).** The media units are the given ones, split by population if they have
no geo axis, and the spend of every cell is its units times the cost per unit that applies there. -/
theorem media_from_units (nG nT : ℕ) (pop : ℕ → ℝ) (hp : ∑ g ∈ range nG, pop g ≠ 0) (f : Flighting)
    (opt : Bool) (r : Created) (h : createTensors nG nT pop f opt = .ok r) (m k : Ten ℝ)
    (hm : f.media = some m) (hk : f.cpmu = some k) :
    ∃ u s x, r.media = some (u, s) ∧ u.shape = [nG, nT, m.shape.getLastD 0] ∧ s.shape = u.shape ∧
      (∀ i, u.data i = some (x i)) ∧ Distributes nG nT pop m x ∧
      ∀ i, InShape i u.shape → s.data i = x i * entryAt k i := by
  obtain ⟨hv, hmp, -, -⟩ := created_parts h
  unfold mediaPart at hmp
  rw [hm, hk] at hmp
  obtain ⟨cost, h1, hmp⟩ := bind_ok hmp
  obtain ⟨u, h2, hmp⟩ := bind_ok hmp
  obtain ⟨e1, e2⟩ := alloc_cases hp h2 (sizes_of hv (by simp [hm]))
  obtain ⟨e3, e4⟩ := expand_value _ _ _ h1
  cases hr : r.media with
  | none => rw [hr] at hmp; cases hmp
  | some p =>
    rw [hr] at hmp
    cases hmp
    refine ⟨_, _, u.data, rfl, e1, rfl, fun i => rfl, e2, fun i hi => ?_⟩
    have hi' : InShape i [nG, nT, m.shape.getLastD 0] := by rw [← e1]; exact hi
    simp only [zipTen, entryAt, e4 i hi']
    rfl

/-- **C22 (media spend given).** The spend is the given one, split by population if it has no geo
axis, and in every cell the units times the cost per unit are the spend; where the cost is zero the
units are not finite. -/
theorem media_from_spend (nG nT : ℕ) (pop : ℕ → ℝ) (hp : ∑ g ∈ range nG, pop g ≠ 0) (f : Flighting)
    (opt : Bool) (r : Created) (h : createTensors nG nT pop f opt = .ok r) (m k : Ten ℝ)
    (hm : f.mediaSpend = some m) (hk : f.cpmu = some k) :
    ∃ u s, r.media = some (u, s) ∧ s.shape = [nG, nT, m.shape.getLastD 0] ∧ u.shape = s.shape ∧
      Distributes nG nT pop m s.data ∧
      ∀ i, InShape i s.shape →
        (entryAt k i ≠ 0 → ∃ x, u.data i = some x ∧ x * entryAt k i = s.data i) ∧
        (entryAt k i = 0 → u.data i = none) := by
  obtain ⟨hv, hmp, -, -⟩ := created_parts h
  have hn : f.media = none := by
    have := ((flighting_accepted_iff nG nT f opt).1 hv).2.2.1
    simp only [hm, Option.isSome_some, and_true] at this
    simpa using this
  unfold mediaPart at hmp
  rw [hm, hk, hn] at hmp
  obtain ⟨cost, h1, hmp⟩ := bind_ok hmp
  obtain ⟨s, h2, hmp⟩ := bind_ok hmp
  obtain ⟨e1, e2⟩ := alloc_cases hp h2 (sizes_of hv (by simp [hm]))
  obtain ⟨e3, e4⟩ := expand_value _ _ _ h1
  cases hr : r.media with
  | none => rw [hr] at hmp; cases hmp
  | some p =>
    rw [hr] at hmp
    cases hmp
    refine ⟨_, _, rfl, e1, rfl, e2, fun i hi => ?_⟩
    have hi' : InShape i [nG, nT, m.shape.getLastD 0] := by rw [← e1]; exact hi
    have e5 : cost.data i = entryAt k i := e4 i hi'
    simp only [zipTen, e5]
    refine ⟨fun h0 => ⟨_, if_neg h0, div_mul_cancel₀ _ h0⟩, fun h0 => if_pos h0⟩

/-- The frequency used: one everywhere under the optimal frequency, otherwise the given one. -/
noncomputable def usedFrequency (f : Flighting) (opt : Bool) (i : List ℕ) : ℝ :=
  if opt then 1 else match f.frequency with
    | some q => entryAt q i
    | none => 0

theorem frequency_value {nG nT c : ℕ} {f : Flighting} {opt : Bool} {imp q : Ten ℝ}
    (hs : imp.shape = [nG, nT, c]) (h : frequencyPart f opt imp [nG, nT, c] = .ok q) :
    q.shape = [nG, nT, c] ∧ ∀ i, InShape i [nG, nT, c] → q.data i = usedFrequency f opt i := by
  unfold frequencyPart at h
  cases opt with
  | true =>
    simp only [if_true] at h
    obtain ⟨e1, e2⟩ := expand_value _ _ _ h
    exact ⟨e1, fun i hi => by rw [e2 i hi]; simp [usedFrequency]⟩
  | false =>
    simp only [Bool.false_eq_true, if_false] at h
    cases hf : f.frequency with
    | none => rw [hf] at h; cases h
    | some y =>
      rw [hf] at h
      obtain ⟨e1, e2⟩ := expand_value _ _ _ h
      exact ⟨e1, fun i hi => by rw [e2 i hi]; simp [usedFrequency, hf, entryAt]⟩

/-- **C22 (RF impressions given).** The impressions are the given ones, split by population if they
have no geo axis; the spend of a cell is its impressions times the cost, and reach times frequency
are the impressions wherever the frequency is not zero.  Under the optimal frequency the frequency is
one and the reach is the impressions. -/
theorem rf_from_impressions (nG nT : ℕ) (pop : ℕ → ℝ) (hp : ∑ g ∈ range nG, pop g ≠ 0)
    (f : Flighting) (opt : Bool) (r : Created) (h : createTensors nG nT pop f opt = .ok r)
    (m k : Ten ℝ) (hm : f.rfImpressions = some m) (hk : f.cprf = some k) :
    ∃ reach q s imp, r.rf = some (reach, q, s) ∧ reach.shape = [nG, nT, m.shape.getLastD 0] ∧
      q.shape = reach.shape ∧ s.shape = reach.shape ∧ Distributes nG nT pop m imp ∧
      ∀ i, InShape i reach.shape →
        s.data i = imp i * entryAt k i ∧ q.data i = usedFrequency f opt i ∧
        (q.data i ≠ 0 → reach.data i * q.data i = imp i) ∧ (q.data i = 0 → reach.data i = 0) := by
  obtain ⟨hv, -, hmp, -⟩ := created_parts h
  unfold rfPart at hmp
  rw [hm, hk] at hmp
  obtain ⟨cost, h1, hmp⟩ := bind_ok hmp
  obtain ⟨u, h2, hmp⟩ := bind_ok hmp
  obtain ⟨q, h3, hmp⟩ := bind_ok hmp
  obtain ⟨e1, e2⟩ := alloc_cases hp h2 (sizes_of hv (by simp [hm]))
  obtain ⟨e3, e4⟩ := expand_value _ _ _ h1
  obtain ⟨e5, e6⟩ := frequency_value e1 h3
  cases hr : r.rf with
  | none => rw [hr] at hmp; cases hmp
  | some p =>
    rw [hr] at hmp
    cases hmp
    refine ⟨_, _, _, u.data, rfl, e1, e5.trans e1.symm, rfl, e2, fun i hi => ?_⟩
    have hi' : InShape i [nG, nT, m.shape.getLastD 0] := by rw [← e1]; exact hi
    have e7 : cost.data i = entryAt k i := e4 i hi'
    simp only [zipTen, e7]
    refine ⟨trivial, e6 i hi', fun h0 => div_mul_cancel₀ _ h0, fun h0 => ?_⟩
    rw [h0, div_zero]

/-- **C22 (RF spend given).** The spend is the given one, split by population if it has no geo axis;
where cost and frequency are not zero, reach times frequency times cost is the spend.  Where one of
them is zero the reach is zero. -/
theorem rf_from_spend (nG nT : ℕ) (pop : ℕ → ℝ) (hp : ∑ g ∈ range nG, pop g ≠ 0)
    (f : Flighting) (opt : Bool) (r : Created) (h : createTensors nG nT pop f opt = .ok r)
    (m k : Ten ℝ) (hm : f.rfSpend = some m) (hk : f.cprf = some k) :
    ∃ reach q s, r.rf = some (reach, q, s) ∧ reach.shape = [nG, nT, m.shape.getLastD 0] ∧
      q.shape = reach.shape ∧ s.shape = reach.shape ∧ Distributes nG nT pop m s.data ∧
      ∀ i, InShape i reach.shape → q.data i = usedFrequency f opt i ∧
        (q.data i ≠ 0 → entryAt k i ≠ 0 → reach.data i * q.data i * entryAt k i = s.data i) ∧
        (q.data i = 0 ∨ entryAt k i = 0 → reach.data i = 0) := by
  obtain ⟨hv, -, hmp, -⟩ := created_parts h
  have hn : f.rfImpressions = none := by
    have := ((flighting_accepted_iff nG nT f opt).1 hv).2.2.2.1
    simp only [hm, Option.isSome_some, and_true] at this
    simpa using this
  unfold rfPart at hmp
  rw [hm, hk, hn] at hmp
  obtain ⟨cost, h1, hmp⟩ := bind_ok hmp
  obtain ⟨s, h2, hmp⟩ := bind_ok hmp
  obtain ⟨q, h3, hmp⟩ := bind_ok hmp
  obtain ⟨e1, e2⟩ := alloc_cases hp h2 (sizes_of hv (by simp [hm]))
  obtain ⟨e3, e4⟩ := expand_value _ _ _ h1
  obtain ⟨e5, e6⟩ := frequency_value (imp := zipTen (· / ·) s cost) e1 h3
  cases hr : r.rf with
  | none => rw [hr] at hmp; cases hmp
  | some p =>
    rw [hr] at hmp
    cases hmp
    refine ⟨_, _, _, rfl, e1, e5.trans e1.symm, rfl, e2, fun i hi => ?_⟩
    have hi' : InShape i [nG, nT, m.shape.getLastD 0] := by rw [← e1]; exact hi
    have e7 : cost.data i = entryAt k i := e4 i hi'
    simp only [zipTen, e7]
    refine ⟨e6 i hi', fun h0 h1 => ?_, ?_⟩
    · rw [div_mul_cancel₀ _ h0, div_mul_cancel₀ _ h1]
    · rintro (h0 | h0) <;> simp [h0]

/-- **C22 (revenue).** A given revenue per KPI is spread over geos and times without change. -/
theorem revenue_spread (nG nT : ℕ) (pop : ℕ → ℝ) (f : Flighting) (opt : Bool) (r : Created)
    (h : createTensors nG nT pop f opt = .ok r) :
    (f.revenuePerKpi = none → r.revenuePerKpi = none) ∧
    ∀ v, f.revenuePerKpi = some v → ∃ v', r.revenuePerKpi = some v' ∧ v'.shape = [nG, nT] ∧
      ∀ g < nG, ∀ t < nT, v'.data [g, t] = v.data ([g, t].drop (2 - v.shape.length)) := by
  obtain ⟨-, -, -, h4⟩ := created_parts h
  constructor
  · intro hn; rw [hn] at h4; exact h4
  · intro v hv
    rw [hv] at h4
    obtain ⟨v', e1, e2⟩ := h4
    obtain ⟨e3, e4⟩ := expand_value _ _ _ e1
    refine ⟨v', e2, e3, fun g hg t ht => ?_⟩
    exact e4 [g, t] (.cons hg (.cons ht .nil))

/-- Two geos with populations 1 and 3, two periods, one media channel bought for 40 then 80 at a cost
of 2 per unit, one RF channel with 8 impressions per period at a cost of 5 and frequency 2. -/
noncomputable def exampleFlighting : Flighting where
  cpmu := some ⟨[1], fun _ => 2⟩
  mediaSpend := some ⟨[2, 1], fun i => if i = [0, 0] then 40 else 80⟩
  cprf := some ⟨[1], fun _ => 5⟩
  rfImpressions := some ⟨[2, 1], fun _ => 8⟩
  frequency := some ⟨[1], fun _ => 2⟩

/-- The population of the example. -/
noncomputable def examplePopulation : ℕ → ℝ := fun g => if g = 0 then 1 else 3

example : ∃ r u s reach q rs,
    createTensors 2 2 examplePopulation exampleFlighting false = .ok r ∧
    r.media = some (u, s) ∧ r.rf = some (reach, q, rs) ∧
    u.data [1, 1, 0] = some 30 ∧ s.data [1, 1, 0] = 60 ∧
    reach.data [1, 0, 0] = 3 ∧ rs.data [1, 0, 0] = 30 := by
  refine ⟨_, _, _, _, _, _, rfl, rfl, rfl, ?_, ?_, ?_, ?_⟩
  all_goals simp [zipTen, examplePopulation, tile, addAxes, Finset.sum_range_succ]
  all_goals norm_num

/-- One geo, one period, 8 impressions at a cost of 5, with a frequency of zero. -/
noncomputable def zeroFrequency : Flighting where
  cprf := some ⟨[1], fun _ => 5⟩
  rfImpressions := some ⟨[1, 1], fun _ => 8⟩
  frequency := some ⟨[1], fun _ => 0⟩

/-- **C22 (negation).** The spend of RF channels need not survive: impressions paid for at a frequency
given as zero are dropped (reach zero) while their spend is kept; no error is raised. -/
theorem zero_frequency_loses_impressions : ∃ (f : Flighting) (r : Created) (reach q s : Ten ℝ),
    createTensors 1 1 (fun _ => 1) f false = .ok r ∧ r.rf = some (reach, q, s) ∧
    s.data [0, 0, 0] = 40 ∧ reach.data [0, 0, 0] * q.data [0, 0, 0] = 0 := by
  refine ⟨zeroFrequency, _, _, _, _, rfl, rfl, ?_, ?_⟩
  all_goals simp [zipTen, tile, addAxes]
  norm_num

end Verif.Spend.Props
