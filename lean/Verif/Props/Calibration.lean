import Mathlib.Tactic
import Verif.Lemmas.Calibration

/-!
# C95: the calibration checks of the model review
-/

namespace Verif.Calibration.Props

open Verif.Calibration Verif.Calibration.Spec Verif.Interval Verif.Interval.Spec Verif.Interval.Props
open Verif.Review (spendShare plausCase PlausCase)

/-! ## The channels -/

/-- The channels of one kind, if there are any, with their draws. -/
def pairs : Option Kind → List (String × List ℚ)
  | none => []
  | some k => k.names.zip (k.roi.getD [])

/-- The checks read the ROI of the media channels and then of the reach and frequency channels; they
fail if there are neither, or if a kind of channel has no ROI variable in the posterior (its prior is
not on the ROI). -/
theorem read_iff (p : Posterior) (chs : List (String × List ℚ)) :
    p.read = .ok chs ↔ (p.media.isSome ∨ p.rf.isSome) ∧ (∀ k ∈ p.media, k.roi.isSome) ∧
      (∀ k ∈ p.rf, k.roi.isSome) ∧ chs = pairs p.media ++ pairs p.rf := by
  obtain ⟨m, r⟩ := p
  rcases m with _ | ⟨mn, _ | md⟩ <;> rcases r with _ | ⟨rn, _ | rd⟩ <;>
    simp [Posterior.read, Kind.read, pairs] <;> exact eq_comm

example : ∃ chs, Posterior.read ⟨some ⟨["tv"], some [[1, 2]]⟩, some ⟨["yt"], some [[3, 4]]⟩⟩ = .ok chs :=
  ⟨[("tv", [1, 2]), ("yt", [3, 4])], rfl⟩

/-! ## The interval -/

/-- **C95.** The interval behind the high-variance check has two draws as its ends, holds more than
the fraction `prob` of the draws, and no narrower interval does; there is one exactly for a
probability below one and at least one draw. -/
theorem interval_narrowest {prob : ℚ} (h0 : 0 ≤ prob) (x : List ℚ) :
    ((hdi prob x).isSome ↔ x ≠ [] ∧ prob < 1) ∧
    ∀ lo hi, hdi prob x = some (lo, hi) →
      lo ∈ x ∧ hi ∈ x ∧ lo ≤ hi ∧ prob * x.length < inside x lo hi ∧ Narrowest prob x (hi - lo) := by
  refine ⟨?_, fun lo hi h => hdi_narrowest h0 h⟩
  rw [← not_iff_not, Option.not_isSome_iff_eq_none, hdi_none h0, not_and_or, not_not, not_lt]

example : hdi (1 / 2) [5, 1, 100, 2, 50] = some (1, 5) := by decide +kernel

/-! ## High variance -/

/-- **C95.** When the high-variance check gives a result: the ROI variables are there, the
probability lies strictly between zero and one (one is refused although it is documented as a
probability), and every channel has draws. -/
theorem highVariance_accepted {c : VarConfig} {p : Posterior} {spend : List ℚ}
    {chs : List (String × List ℚ)} (hp : p.read = .ok chs) (hl : spend.length = chs.length)
    (hne : chs ≠ []) :
    (∃ r, highVariance c p spend = .ok r) ↔ 0 < c.prob ∧ c.prob < 1 ∧ ∀ x ∈ chs, x.2 ≠ [] := by
  have hlen : (spendShare spend).length = chs.length := (spendShare_length spend).trans hl
  unfold highVariance
  rw [hp]
  simp only
  by_cases hc : 0 < c.prob ∧ c.prob ≤ 1
  · rw [if_neg (not_not.2 hc)]
    cases hv : varChannels c (chs.zip (spendShare spend)) with
    | error e =>
      obtain ⟨_, x, hx, hn⟩ := varChannels_error hv
      have hx1 : x.1 ∈ chs := (List.of_mem_zip hx).1
      rw [hdi_none hc.1.le] at hn
      simp only [reduceCtorEq, exists_false, false_iff, not_and]
      intro _ h1 h2
      rcases hn with hn | hn
      · exact h2 _ hx1 hn
      · exact absurd h1 (not_lt.2 hn)
    | ok rows =>
      have hf := varChannels_ok.1 hv
      simp only [Except.ok.injEq, exists_eq', true_iff]
      have hall : ∀ x ∈ chs, hdi c.prob x.2 ≠ none := by
        intro x hx hn
        obtain ⟨i, hi, rfl⟩ := List.getElem_of_mem hx
        have hz : i < (chs.zip (spendShare spend)).length := by
          rw [List.length_zip, hlen]; omega
        have hr : i < rows.length := by rw [← hf.length_eq]; exact hz
        have := List.forall₂_iff_get.1 hf |>.2 i hz hr
        simp only [List.get_eq_getElem, List.getElem_zip, varChannel] at this
        rw [hn] at this
        cases this
      have hall' : ∀ x ∈ chs, x.2 ≠ [] ∧ c.prob < 1 := by
        intro x hx
        have := hall x hx
        rw [Ne, hdi_none hc.1.le, not_or, not_le] at this
        exact this
      obtain ⟨x, hx⟩ := List.exists_mem_of_ne_nil _ hne
      exact ⟨hc.1, (hall' x hx).2, fun x hx => (hall' x hx).1⟩
  · rw [if_pos hc]
    simp only [reduceCtorEq, exists_false, false_iff, not_and]
    intro h1 h2
    exact absurd ⟨h1, h2.le⟩ hc

/-- What the check says of one channel. -/
theorem varChannel_exact {c : VarConfig} (h0 : 0 ≤ c.prob) (ht : 0 ≤ c.threshold)
    (hw : 0 < c.priorWidth) {x : (String × List ℚ) × ℚ} {r : VarChannel}
    (h : varChannel c x = .ok r) : r.name = x.1.1 ∧ r.share = x.2 ∧
      (r.flagged = true ↔ Uncertain c.threshold c.priorWidth c.prob x.1.2 x.2) ∧
      (∀ w m, Narrowest c.prob x.1.2 w → IsMedian x.1.2 m →
        (m ≠ 0 → r.ratio * (c.priorWidth * |m|) = w) ∧ (m = 0 → r.ratio = 0)) := by
  unfold varChannel at h
  cases hh : hdi c.prob x.1.2 with
  | none => rw [hh] at h; cases h
  | some q =>
    obtain ⟨lo, hi⟩ := q
    rw [hh] at h
    injection h with h
    subst h
    obtain ⟨hlo, _, _, _, hn⟩ := hdi_narrowest h0 hh
    have hx : x.1.2 ≠ [] := List.ne_nil_of_mem hlo
    have hm := (isMedian_iff hx _).2 rfl
    refine ⟨rfl, rfl, ?_, ?_⟩
    · simp only [decide_eq_true_eq]
      constructor
      · intro h
        by_cases hz : medianFin x.1.2 = 0
        · simp only [relWidth, widthRatio, hz, ne_eq, not_true_eq_false, if_false, zero_div,
            ite_self, zero_mul] at h
          exact absurd h (not_lt.2 ht)
        · refine ⟨_, _, hn, hm, hz, ?_⟩
          simp only [relWidth, widthRatio, ne_eq, hz, hw.ne', not_false_eq_true, if_true] at h
          have hp : 0 < c.priorWidth * |medianFin x.1.2| := mul_pos hw (abs_pos.2 hz)
          have e : (hi - lo) / |medianFin x.1.2| / c.priorWidth * x.2 =
              x.2 * (hi - lo) / (c.priorWidth * |medianFin x.1.2|) := by
            rw [div_div, mul_comm |medianFin x.1.2|]; ring
          rw [e, lt_div_iff₀ hp] at h
          exact h
      · rintro ⟨w, m, h1, h2, h3, h4⟩
        rw [narrowest_unique h1 hn, (isMedian_iff hx m).1 h2] at h4
        rw [(isMedian_iff hx m).1 h2] at h3
        simp only [relWidth, widthRatio, ne_eq, h3, hw.ne', not_false_eq_true, if_true]
        have hp : 0 < c.priorWidth * |medianFin x.1.2| := mul_pos hw (abs_pos.2 h3)
        have e : (hi - lo) / |medianFin x.1.2| / c.priorWidth * x.2 =
            x.2 * (hi - lo) / (c.priorWidth * |medianFin x.1.2|) := by
          rw [div_div, mul_comm |medianFin x.1.2|]; ring
        rw [e, lt_div_iff₀ hp]
        exact h4
    · intro w m h1 h2
      rw [narrowest_unique h1 hn, (isMedian_iff hx m).1 h2]
      constructor
      · intro hz
        simp only [relWidth, widthRatio, ne_eq, hz, hw.ne', not_false_eq_true, if_true]
        have := abs_pos.2 hz
        field_simp
      · intro hz
        simp [relWidth, widthRatio, hz]

/-- **C95.** The high-variance check reports every paid channel, in order, with its share of the
spend and the ratio of the relative width of the narrowest interval to the prior one.  It flags
exactly the uncertain channels, lists them in order, and asks for a review exactly if there is one.
-/
theorem highVariance_exact {c : VarConfig} (ht : 0 ≤ c.threshold) (hw : 0 < c.priorWidth)
    {p : Posterior} {spend : List ℚ} (hs : ∀ s ∈ spend, 0 ≤ s) {chs : List (String × List ℚ)}
    (hp : p.read = .ok chs) (hl : spend.length = chs.length) {r : VarResult}
    (h : highVariance c p spend = .ok r) :
    r.channels.map (·.name) = chs.map (·.1) ∧
    (∀ i (hi : i < chs.length), ∃ row, r.channels[i]? = some row ∧ row.name = chs[i].1 ∧
      IsShare spend i row.share ∧
      (row.flagged = true ↔ Uncertain c.threshold c.priorWidth c.prob chs[i].2 row.share) ∧
      (∀ w m, Narrowest c.prob chs[i].2 w → IsMedian chs[i].2 m →
        (m ≠ 0 → row.ratio * (c.priorWidth * |m|) = w) ∧ (m = 0 → row.ratio = 0))) ∧
    r.flagged = (r.channels.filter (·.flagged)).map (·.name) ∧
    (r.review = true ↔ ∃ i, ∃ hi : i < chs.length, ∃ s, IsShare spend i s ∧
      Uncertain c.threshold c.priorWidth c.prob chs[i].2 s) := by
  have hlen : (spendShare spend).length = chs.length := (spendShare_length spend).trans hl
  unfold highVariance at h
  rw [hp] at h
  simp only at h
  by_cases hc : 0 < c.prob ∧ c.prob ≤ 1
  swap
  · rw [if_pos hc] at h; cases h
  rw [if_neg (not_not.2 hc)] at h
  cases hv : varChannels c (chs.zip (spendShare spend)) with
  | error e => rw [hv] at h; cases h
  | ok rows =>
    rw [hv] at h
    injection h with h
    subst h
    have hf := varChannels_ok.1 hv
    have hzl : (chs.zip (spendShare spend)).length = chs.length := by
      rw [List.length_zip, hlen, min_self]
    have hrl : rows.length = chs.length := hf.length_eq.symm.trans hzl
    have hrow : ∀ i (hi : i < chs.length), ∃ row, rows[i]? = some row ∧ row.name = chs[i].1 ∧
      IsShare spend i row.share ∧
      (row.flagged = true ↔ Uncertain c.threshold c.priorWidth c.prob chs[i].2 row.share) ∧
      (∀ w m, Narrowest c.prob chs[i].2 w → IsMedian chs[i].2 m →
        (m ≠ 0 → row.ratio * (c.priorWidth * |m|) = w) ∧ (m = 0 → row.ratio = 0)) := by
      intro i hi
      have hz : i < (chs.zip (spendShare spend)).length := by omega
      have hr : i < rows.length := by omega
      have hi' : i < (spendShare spend).length := by omega
      have hx := List.forall₂_iff_get.1 hf |>.2 i hz hr
      simp only [List.get_eq_getElem, List.getElem_zip] at hx
      obtain ⟨e1, e2, e3, e4⟩ := varChannel_exact hc.1.le ht hw hx
      refine ⟨rows[i], List.getElem?_eq_getElem hr, e1, ?_, ?_, e4⟩
      · rw [e2]; exact isShare_spendShare hs hi'
      · rw [e3, e2]
    refine ⟨?_, hrow, rfl, ?_⟩
    · refine List.ext_getElem (by simp [hrl]) fun i h1 h2 => ?_
      rw [List.length_map] at h1 h2
      obtain ⟨row, e, e1, _⟩ := hrow i h2
      rw [List.getElem?_eq_getElem h1] at e
      injection e with e
      rw [List.getElem_map, List.getElem_map, e, e1]
    · simp only [Bool.not_eq_true', List.isEmpty_eq_false_iff, ne_eq, List.map_eq_nil_iff,
        List.filter_eq_nil_iff, not_forall, not_not]
      constructor
      · rintro ⟨row, hrow', hfl⟩
        obtain ⟨i, hi, rfl⟩ := List.getElem_of_mem hrow'
        obtain ⟨row, e, _, e2, e3, _⟩ := hrow i (by omega)
        rw [List.getElem?_eq_getElem hi] at e
        injection e with e
        subst e
        exact ⟨i, by omega, _, e2, e3.1 hfl⟩
      · rintro ⟨i, hi, s, h1, h2⟩
        obtain ⟨row, e, _, e2, e3, _⟩ := hrow i hi
        rw [isShare_unique h1 e2] at h2
        exact ⟨row, List.mem_of_getElem? e, e3.2 h2⟩

/-- A posterior with an uncertain and a certain channel. -/
def sample : Posterior :=
  ⟨some ⟨["tv", "radio"], some [[1, 9, 2, 30, 3], [4, 5, 4, 5, 4]]⟩, some ⟨["yt"], some [[7, 7, 8, 8, 7]]⟩⟩

/-- The default configuration. -/
def defaults : VarConfig := ⟨1, defaultPriorWidth, 4 / 5⟩

example : (match highVariance defaults sample [80, 10, 10] with
    | .ok r => decide (r.review = true ∧ r.flagged = ["tv"] ∧ r.channels.length = 3)
    | .error _ => false) = true := by decide +kernel

/-! ### Units and order -/

theorem hdi_scale {a : ℚ} (ha : 0 < a) (prob : ℚ) (x : List ℚ) :
    hdi prob (x.map (a * ·)) = (hdi prob x).map fun q => (a * q.1, a * q.2) := by
  have hsrt : sorted (x.map (a * ·)) = (sorted x).map (a * ·) := by
    have := sorted_affine (b := 0) ha.le x
    simpa using this
  have hg : ∀ j, ((sorted x).map (a * ·)).getD j 0 = a * (sorted x).getD j 0 := by
    intro j
    simp only [List.getD_eq_getElem?_getD, List.getElem?_map]
    cases (sorted x)[j]? <;> simp
  unfold hdi
  simp only [hsrt, hg, List.length_map]
  set k := ⌊prob * x.length⌋.toNat
  have e : ∀ l : List ℕ, l.argmin (fun i => a * (sorted x).getD (i + k) 0 - a * (sorted x).getD i 0) =
      l.argmin (fun i => (sorted x).getD (i + k) 0 - (sorted x).getD i 0) := by
    intro l
    refine List.reverseRecOn l rfl fun l i ih => ?_
    rw [List.argmin_concat, List.argmin_concat, ih]
    congr 1
    funext j
    have : (a * (sorted x).getD (i + k) 0 - a * (sorted x).getD i 0 <
        a * (sorted x).getD (j + k) 0 - a * (sorted x).getD j 0) ↔
        ((sorted x).getD (i + k) 0 - (sorted x).getD i 0 <
        (sorted x).getD (j + k) 0 - (sorted x).getD j 0) := by
      rw [← mul_sub, ← mul_sub]
      exact mul_lt_mul_iff_right₀ ha
    simp only [this]
  rw [e]
  cases (List.range (x.length - k)).argmin fun i => (sorted x).getD (i + k) 0 - (sorted x).getD i 0 <;>
    rfl

theorem median_scale {a : ℚ} (ha : 0 < a) (x : List ℚ) :
    medianFin (x.map (a * ·)) = a * medianFin x := by
  have hsrt : sorted (x.map (a * ·)) = (sorted x).map (a * ·) := by
    have := sorted_affine (b := 0) ha.le x
    simpa using this
  have hg : ∀ j, ((sorted x).map (a * ·)).getD j 0 = a * (sorted x).getD j 0 := by
    intro j
    simp only [List.getD_eq_getElem?_getD, List.getElem?_map]
    cases (sorted x)[j]? <;> simp
  unfold medianFin
  simp only [hsrt, hg, List.length_map]
  split_ifs
  · rfl
  · ring

theorem varChannel_scale {a : ℚ} (ha : 0 < a) (c : VarConfig) (n : String) (x : List ℚ) (s : ℚ) :
    varChannel c ((n, x.map (a * ·)), s) = varChannel c ((n, x), s) := by
  unfold varChannel
  simp only [hdi_scale ha, median_scale ha]
  cases hdi c.prob x with
  | none => rfl
  | some q =>
    obtain ⟨lo, hi⟩ := q
    have : relWidth (a * hi - a * lo) (a * medianFin x) = relWidth (hi - lo) (medianFin x) := by
      unfold relWidth
      by_cases hz : medianFin x = 0
      · simp [hz]
      · have h1 : a * medianFin x ≠ 0 := mul_ne_zero ha.ne' hz
        rw [if_pos h1, if_pos hz, ← mul_sub, abs_mul, abs_of_pos ha, mul_div_mul_left _ _ ha.ne']
    simp only [Option.map_some, this]

theorem spendShare_scale {b : ℚ} (hb : 0 < b) (spend : List ℚ) :
    spendShare (spend.map (b * ·)) = spendShare spend := by
  unfold spendShare
  rw [List.sum_map_mul_left]
  simp only [List.map_id']
  by_cases h : 0 < spend.sum
  · rw [if_pos h, if_pos (mul_pos hb h), List.map_map]
    refine List.map_congr_left fun s _ => ?_
    simp only [Function.comp]
    exact mul_div_mul_left _ _ hb.ne'
  · rw [if_neg h, if_neg fun h' => h ((mul_pos_iff_of_pos_left hb).1 h'), List.map_map]
    rfl

theorem varChannels_congr {c : VarConfig} : ∀ {l l' : List ((String × List ℚ) × ℚ)},
    List.Forall₂ (fun x y => varChannel c x = varChannel c y) l l' →
    varChannels c l = varChannels c l' := by
  intro l l' h
  induction h with
  | nil => rfl
  | cons h _ ih => simp only [varChannels, h, ih]

theorem zip_forall₂ {α β : Type} {R : α → α → Prop} : ∀ {l l' : List α} (_ : List.Forall₂ R l l')
    (s : List β), List.Forall₂ (fun x y => R x.1 y.1 ∧ x.2 = y.2) (l.zip s) (l'.zip s) := by
  intro l l' h
  induction h with
  | nil => intro s; simp
  | cons h _ ih =>
    intro s
    cases s with
    | nil => simp
    | cons b s => exact List.Forall₂.cons ⟨h, rfl⟩ (ih s)

theorem highVariance_congr {c : VarConfig} {p p' : Posterior} {spend spend' : List ℚ}
    {chs chs' : List (String × List ℚ)} (hp : p.read = .ok chs) (hp' : p'.read = .ok chs')
    (hs : spendShare spend' = spendShare spend)
    (h : List.Forall₂ (fun x y => ∀ s, varChannel c (x, s) = varChannel c (y, s)) chs chs') :
    highVariance c p' spend' = highVariance c p spend := by
  unfold highVariance
  rw [hp, hp', hs]
  have hz := zip_forall₂ h (spendShare spend)
  have hz' : List.Forall₂ (fun x y => varChannel c x = varChannel c y) (chs.zip (spendShare spend))
      (chs'.zip (spendShare spend)) := by
    refine List.Forall₂.imp ?_ hz
    rintro ⟨x1, x2⟩ ⟨y1, y2⟩ ⟨h1, h2⟩
    simp only at h1 h2
    subst h2
    exact h1 x2
  have := varChannels_congr hz'
  simp only [this]

/-- **C95.** The high-variance check does not depend on the units of the ROI of a channel or on the
currency of the spend. -/
theorem highVariance_units {c : VarConfig} {p p' : Posterior} {spend : List ℚ} {b : ℚ} (hb : 0 < b)
    {chs chs' : List (String × List ℚ)} (hp : p.read = .ok chs) (hp' : p'.read = .ok chs')
    (h : List.Forall₂ (fun x y => x.1 = y.1 ∧ ∃ a : ℚ, 0 < a ∧ y.2 = x.2.map (a * ·)) chs chs') :
    highVariance c p' (spend.map (b * ·)) = highVariance c p spend := by
  refine highVariance_congr hp hp' (spendShare_scale hb spend) (h.imp fun x y hxy s => ?_)
  obtain ⟨x1, x2⟩ := x
  obtain ⟨y1, y2⟩ := y
  obtain ⟨e, a, ha, e'⟩ := hxy
  simp only at e e'
  subst e e'
  exact (varChannel_scale ha c x1 x2 s).symm

example : List.Forall₂ (fun (x y : String × List ℚ) => x.1 = y.1 ∧ ∃ a : ℚ, 0 < a ∧
    y.2 = x.2.map (a * ·)) [("tv", [1, 2])] [("tv", [3, 6])] :=
  List.Forall₂.cons ⟨rfl, 3, by decide, by decide +kernel⟩ List.Forall₂.nil

/-- **C95.** Nor on the order of the draws and the chains. -/
theorem highVariance_order {c : VarConfig} {p p' : Posterior} {spend : List ℚ}
    {chs chs' : List (String × List ℚ)} (hp : p.read = .ok chs) (hp' : p'.read = .ok chs')
    (h : List.Forall₂ (fun x y => x.1 = y.1 ∧ x.2.Perm y.2) chs chs') :
    highVariance c p' spend = highVariance c p spend := by
  refine highVariance_congr hp hp' rfl (h.imp fun x y hxy s => ?_)
  obtain ⟨x1, x2⟩ := x
  obtain ⟨y1, y2⟩ := y
  obtain ⟨e, e'⟩ := hxy
  simp only at e e'
  subst e
  have hsrt : sorted x2 = sorted y2 :=
    ((sorted_perm x2).trans (e'.trans (sorted_perm y2).symm)).eq_of_pairwise
      (fun a b _ _ h1 h2 => le_antisymm h1 h2) (sorted_pairwise _) (sorted_pairwise _)
  have hd : hdi c.prob x2 = hdi c.prob y2 := by unfold hdi; rw [hsrt, e'.length_eq]
  have hm : medianFin x2 = medianFin y2 := by unfold medianFin; rw [hsrt, e'.length_eq]
  unfold varChannel
  simp only [hd, hm]

example : List.Forall₂ (fun (x y : String × List ℚ) => x.1 = y.1 ∧ x.2.Perm y.2)
    [("tv", [1, 2])] [("tv", [2, 1])] :=
  List.Forall₂.cons ⟨rfl, List.Perm.swap _ _ _⟩ List.Forall₂.nil

/-! ### Findings -/

/-- **C95, finding.** A channel whose median ROI is zero is never flagged, however wide its interval
is. -/
theorem zero_median_passes {c : VarConfig} (ht : 0 ≤ c.threshold) {x : (String × List ℚ) × ℚ}
    {r : VarChannel} (h : varChannel c x = .ok r) (hz : medianFin x.1.2 = 0) : r.flagged = false := by
  unfold varChannel at h
  cases hh : hdi c.prob x.1.2 with
  | none => rw [hh] at h; cases h
  | some q =>
    obtain ⟨lo, hi⟩ := q
    rw [hh] at h
    injection h with h
    subst h
    simp [relWidth, widthRatio, hz, ht]

/-- **C95, finding.** All the spend is on one channel whose ROI lies between minus and plus a
million; the check finds that all channels have an acceptable variance. -/
theorem wide_interval_passes : ∃ (p : Posterior) (r : VarResult),
    p.read = .ok [("tv", [-1000000, -1000000, 0, 1000000, 1000000])] ∧
    highVariance defaults p [100] = .ok r ∧ r.review = false ∧
    Narrowest (4 / 5) [-1000000, -1000000, 0, 1000000, 1000000] 2000000 := by
  refine ⟨⟨some ⟨["tv"], some [[-1000000, -1000000, 0, 1000000, 1000000]]⟩, none⟩,
    ⟨false, [⟨"tv", false, 1, 0⟩], [], defaultPriorWidth⟩, rfl, ?_, rfl, ?_⟩
  · have : (match highVariance defaults
        ⟨some ⟨["tv"], some [[-1000000, -1000000, 0, 1000000, 1000000]]⟩, none⟩ [100] with
      | .ok r => decide (r = ⟨false, [⟨"tv", false, 1, 0⟩], [], defaultPriorWidth⟩)
      | .error _ => false) = true := by decide +kernel
    revert this
    cases highVariance defaults
      ⟨some ⟨["tv"], some [[-1000000, -1000000, 0, 1000000, 1000000]]⟩, none⟩ [100] with
    | error e => intro h; cases h
    | ok r => intro h; rw [of_decide_eq_true h]
  · have h : hdi (4 / 5) [-1000000, -1000000, 0, 1000000, 1000000] = some (-1000000, 1000000) := by
      decide +kernel
    have := (hdi_narrowest (by norm_num) h).2.2.2.2
    norm_num at this
    exact this

/-- **C95, finding.** The results report the default thresholds, whatever the configuration. -/
theorem reported_defaults {c : VarConfig} {c' : PlausConfig} {p : Posterior} {spend : List ℚ} :
    (∀ r, highVariance c p spend = .ok r → r.reported = defaultPriorWidth) ∧
    (∀ r, implausible c' p spend = .ok r → r.reported = (20, 1 / 2)) := by
  constructor
  · intro r h
    unfold highVariance at h
    cases hp : p.read with
    | error e => rw [hp] at h; cases h
    | ok chs =>
      rw [hp] at h
      simp only at h
      split_ifs at h
      cases hv : varChannels c (chs.zip (spendShare spend)) with
      | error e => rw [hv] at h; cases h
      | ok rows => rw [hv] at h; injection h with h; subst h; rfl
  · intro r h
    unfold implausible at h
    cases hp : p.read with
    | error e => rw [hp] at h; cases h
    | ok chs => rw [hp] at h; injection h with h; subst h; rfl

/-- **C95, finding.** With a configured upper bound of 100 a channel passes although its
spend-weighted ROI of 50 is above the upper bound of 20 that the result reports. -/
theorem reported_bound_contradicts : ∃ (c : PlausConfig) (p : Posterior) (r : PlausResult),
    implausible c p [1] = .ok r ∧ r.review = false ∧ ∃ row ∈ r.channels, r.reported.1 < row.weighted := by
  refine ⟨⟨100, 1 / 2⟩, ⟨some ⟨["tv"], some [[40, 60]]⟩, none⟩,
    ⟨false, [⟨"tv", .pass, 1, 50, 50⟩], [], [], (20, 1 / 2)⟩, ?_, rfl, ⟨_, List.mem_singleton.2 rfl,
      by norm_num⟩⟩
  have : (match implausible ⟨100, 1 / 2⟩ ⟨some ⟨["tv"], some [[40, 60]]⟩, none⟩ [1] with
    | .ok r => decide (r = ⟨false, [⟨"tv", .pass, 1, 50, 50⟩], [], [], (20, 1 / 2)⟩)
    | .error _ => false) = true := by decide +kernel
  revert this
  cases implausible ⟨100, 1 / 2⟩ ⟨some ⟨["tv"], some [[40, 60]]⟩, none⟩ [1] with
  | error e => intro h; cases h
  | ok r => intro h; rw [of_decide_eq_true h]

/-! ## Implausible ROI -/

/-- **C95.** The implausible-ROI check reports every paid channel, in order, with its share of the
spend, its mean ROI and their product.  It calls a channel high exactly if the product exceeds the
upper bound, low exactly if it is not high, has spend, and its mean is below the lower bound times
the share; it lists both in order and asks for a review exactly if there is one. -/
theorem implausible_exact {c : PlausConfig} {p : Posterior} {spend : List ℚ}
    (hs : ∀ s ∈ spend, 0 ≤ s) {chs : List (String × List ℚ)} (hp : p.read = .ok chs)
    (hl : spend.length = chs.length) (hd : ∀ x ∈ chs, x.2 ≠ []) :
    ∃ r, implausible c p spend = .ok r ∧ r.channels.length = chs.length ∧
    (∀ i (hi : i < chs.length), ∃ row, r.channels[i]? = some row ∧ row.name = chs[i].1 ∧
      IsShare spend i row.share ∧ IsMean chs[i].2 row.mean ∧ row.weighted = row.mean * row.share ∧
      (row.case = .high ↔ c.upper < row.mean * row.share) ∧
      (row.case = .low ↔ ¬ c.upper < row.mean * row.share ∧ 0 < row.share ∧
        row.mean < c.lower * row.share)) ∧
    r.high = (r.channels.filter fun x => x.case = .high).map (·.name) ∧
    r.low = (r.channels.filter fun x => x.case = .low).map (·.name) ∧
    (r.review = true ↔ ∃ row ∈ r.channels, row.case ≠ .pass) := by
  have hlen : (spendShare spend).length = chs.length := (spendShare_length spend).trans hl
  unfold implausible
  rw [hp]
  refine ⟨_, rfl, ?_, ?_, rfl, rfl, ?_⟩
  · simp [hlen]
  · intro i hi
    have hz : i < (chs.zip (spendShare spend)).length := by rw [List.length_zip, hlen]; omega
    have hi' : i < (spendShare spend).length := by omega
    refine ⟨plausChannel c (chs[i], (spendShare spend)[i]), ?_, rfl, isShare_spendShare hs hi', ?_, rfl,
      ?_⟩
    · rw [List.getElem?_map, List.getElem?_eq_getElem hz, List.getElem_zip]
      rfl
    · have hne := hd _ (List.getElem_mem hi)
      have : (0 : ℚ) < chs[i].2.length := by exact_mod_cast List.length_pos_iff.2 hne
      simp only [IsMean, plausChannel, meanFin]
      exact div_mul_cancel₀ _ this.ne'
    · exact Verif.Review.Props.plaus_cases (isShare_nonneg hs (isShare_spendShare hs hi'))
  · simp only [Bool.or_eq_true, Bool.not_eq_true', List.isEmpty_eq_false_iff, ne_eq,
      List.map_eq_nil_iff, List.filter_eq_nil_iff, not_forall, not_not, decide_eq_true_eq]
    constructor
    · rintro (⟨r, hr, e⟩ | ⟨r, hr, e⟩) <;> exact ⟨r, hr, by rw [e]; decide⟩
    · rintro ⟨r, hr, e⟩
      cases hc : r.case with
      | pass => exact absurd hc e
      | high => exact Or.inl ⟨r, hr, hc⟩
      | low => exact Or.inr ⟨r, hr, hc⟩

example : (match implausible ⟨20, 1 / 2⟩ sample [80, 10, 10] with
    | .ok r => decide (r.review = false ∧ r.channels.length = 3)
    | .error _ => false) = true := by decide +kernel

/-! ## Potential bias -/

variable {G lead T : ℕ}

/-- The controls, if there are any. -/
def controlsOf (d : Data G lead T) : List (String × (Fin G → Fin T → ℝ)) := d.controls.getD []

/-- **C95.** The paid channels are the media channels, with their media units, and then the reach and
frequency channels, with reach times frequency; without either there are none. -/
theorem paid_channels (d : Data G lead T) (xs : List (String × (Fin G → Fin (lead + T) → ℝ))) :
    d.paid = some xs ↔ (d.media.isSome ∨ d.rf.isSome) ∧
      xs = d.media.getD [] ++ (d.rf.getD []).map fun c => (c.1, fun g t => c.2.1 g t * c.2.2 g t) := by
  unfold Data.paid
  rcases d.media with _ | m <;> rcases d.rf with _ | r <;> simp [eq_comm] <;> rfl

example : (⟨some [("tv", fun _ _ => 1)], some [("yt", fun _ _ => 2, fun _ _ => 3)], none⟩ : Data 1 0 2).paid
    = some [("tv", fun _ _ => 1), ("yt", fun _ _ => 2 * 3)] := rfl

theorem potentialBias_eq {r : ℝ} {d : Data G lead T} {xs : List (String × (Fin G → Fin (lead + T) → ℝ))}
    (hx : d.paid = some xs) (hz : controlsOf d ≠ []) (hT : 2 ≤ T) :
    potentialBias r d = .ok
      ⟨if (((xs.map (biasChannel r (controlsOf d))).filter (·.low)).map (·.name)).isEmpty then .pass
        else .review, xs.map (biasChannel r (controlsOf d)),
        ((xs.map (biasChannel r (controlsOf d))).filter (·.low)).map (·.name),
        xs.map fun x => (x.1, (controlsOf d).map fun c => (c.1, corrAt x.2 c.2)), 1 / 10⟩ := by
  unfold potentialBias
  rw [hx]
  unfold controlsOf at hz ⊢
  rcases hc : d.controls with _ | (_ | ⟨z, zs⟩)
  · rw [hc] at hz; simp at hz
  · rw [hc] at hz; simp at hz
  · simp only [Option.getD_some]
    rw [if_neg (by omega)]

/-- **C95.** With controls and at least two times the potential-bias check reports every paid channel
in order and lists exactly the channels that can be compared with some control somewhere and whose
correlation with every control in every geo is below the threshold; it asks for a review exactly if
there is one. -/
theorem bias_exact {r : ℝ} {d : Data G lead T} {xs : List (String × (Fin G → Fin (lead + T) → ℝ))}
    (hx : d.paid = some xs) (hz : controlsOf d ≠ []) (hT : 2 ≤ T) :
    ∃ res, potentialBias r d = .ok res ∧ res.channels.map (·.name) = xs.map (·.1) ∧
    (∀ i (hi : i < xs.length), ∃ row, res.channels[i]? = some row ∧ row.name = xs[i].1 ∧
      (row.low = true ↔ SomewhereComparable (aligned xs[i].2) ((controlsOf d).map (·.2)) ∧
        Unrelated r (aligned xs[i].2) ((controlsOf d).map (·.2)))) ∧
    res.low = (res.channels.filter (·.low)).map (·.name) ∧
    (res.case = .review ↔ ∃ row ∈ res.channels, row.low = true) ∧
    (res.case = .pass ↔ ∀ row ∈ res.channels, row.low = false) := by
  refine ⟨_, potentialBias_eq hx hz hT, ?_, ?_, rfl, ?_, ?_⟩
  · simp [biasChannel]
  · intro i hi
    refine ⟨biasChannel r (controlsOf d) xs[i], ?_, rfl, low_iff⟩
    rw [List.getElem?_map, List.getElem?_eq_getElem hi]
    rfl
  · simp only
    split_ifs with he
    · simp only [List.isEmpty_iff, List.map_eq_nil_iff, List.filter_eq_nil_iff] at he
      simp only [false_iff, not_exists, not_and]
      exact he
    · simp only [List.isEmpty_iff, List.map_eq_nil_iff, List.filter_eq_nil_iff, not_forall, not_not] at he
      obtain ⟨row, h1, h2⟩ := he
      simp only [true_iff]
      exact ⟨row, h1, h2⟩
  · simp only
    split_ifs with he
    · simp only [List.isEmpty_iff, List.map_eq_nil_iff, List.filter_eq_nil_iff, Bool.not_eq_true] at he
      simp only [true_iff]
      exact he
    · simp only [List.isEmpty_iff, List.map_eq_nil_iff, List.filter_eq_nil_iff, not_forall, not_not] at he
      obtain ⟨row, h1, h2⟩ := he
      simp only [false_iff, not_forall]
      exact ⟨row, h1, by rw [h2]; decide⟩

/-- **C95.** The matrix of correlations is labelled by the paid channels and the controls, and holds
for every geo the correlation of that channel, at the times of the model, with that control: missing
exactly if one of them does not vary. -/
theorem bias_matrix {r : ℝ} {d : Data G lead T} {xs : List (String × (Fin G → Fin (lead + T) → ℝ))}
    (hx : d.paid = some xs) (hz : controlsOf d ≠ []) (hT : 2 ≤ T) {res : BiasResult G}
    (h : potentialBias r d = .ok res) : res.matrix.length = xs.length ∧
    ∀ i (hi : i < xs.length), ∃ row, res.matrix[i]? = some row ∧ row.1 = xs[i].1 ∧
      row.2.length = (controlsOf d).length ∧
      ∀ j (hj : j < (controlsOf d).length), ∃ cell, row.2[j]? = some cell ∧
        cell.1 = (controlsOf d)[j].1 ∧ ∀ g,
        (cell.2 g = none ↔ ¬ Comparable (aligned xs[i].2) (controlsOf d)[j].2 g) ∧
        ∀ q, cell.2 g = some q →
          q * Real.sqrt (Verif.Eda.Spec.variation (aligned xs[i].2 g) *
            Verif.Eda.Spec.variation ((controlsOf d)[j].2 g)) =
          Verif.Eda.Spec.covariation (aligned xs[i].2 g) ((controlsOf d)[j].2 g) := by
  rw [potentialBias_eq hx hz hT] at h
  injection h with h
  subst h
  refine ⟨by simp, fun i hi => ⟨_, by rw [List.getElem?_map, List.getElem?_eq_getElem hi]; rfl, rfl,
    by simp, fun j hj => ⟨_, by rw [List.getElem?_map, List.getElem?_eq_getElem hj]; rfl, rfl,
      fun g => ⟨corrAt_none, fun q hq => ?_⟩⟩⟩⟩
  obtain ⟨hc, e⟩ := corrAt_some hq
  rw [e]
  exact div_mul_cancel₀ _ (sqrt_pos hc).ne'

/-- **C95.** The reported maximum is attained, no correlation is larger, and it lies between zero and
one; it is missing exactly if the channel can be compared with no control. -/
theorem bias_maximum {r : ℝ} {zs : List (String × (Fin G → Fin T → ℝ))}
    {x : String × (Fin G → Fin (lead + T) → ℝ)} :
    ((biasChannel r zs x).maxAbs = none ↔ ¬ SomewhereComparable (aligned x.2) (zs.map (·.2))) ∧
    ∀ m, (biasChannel r zs x).maxAbs = some m → 0 ≤ m ∧ m ≤ 1 ∧
      (∃ g, ∃ z ∈ zs, ∃ q, corrAt x.2 z.2 g = some q ∧ |q| = m) ∧
      ∀ g, ∀ z ∈ zs, ∀ q, corrAt x.2 z.2 g = some q → |q| ≤ m := by
  refine ⟨maxAbs_none, fun m hm => ?_⟩
  obtain ⟨⟨g, z, hz, q, hq, e⟩, hall⟩ := maxAbs_some hm
  refine ⟨e ▸ abs_nonneg _, ?_, ⟨g, z, hz, q, hq, e⟩, hall⟩
  obtain ⟨hc, e'⟩ := corrAt_some hq
  rw [← e, e', abs_div, abs_of_pos (sqrt_pos hc), div_le_one (sqrt_pos hc)]
  exact Verif.Eda.abs_covariation_le _ _

/-- **C95.** Which channels are listed does not depend on the units of media and controls, nor on
those of each geo, nor on the media before the first time of the controls. -/
theorem bias_units {r : ℝ} {zs zs' : List (String × (Fin G → Fin T → ℝ))} {lead' : ℕ}
    {x : String × (Fin G → Fin (lead + T) → ℝ)} {y : String × (Fin G → Fin (lead' + T) → ℝ)}
    (hx : SameUnits (aligned x.2) (aligned y.2))
    (hz : List.Forall₂ (fun z z' => SameUnits z.2 z'.2) zs zs') :
    (biasChannel r zs' y).low = (biasChannel r zs x).low := by
  have key : ∀ {z z' : Fin G → Fin T → ℝ}, SameUnits z z' → ∀ g,
      (Comparable (aligned y.2) z' g ↔ Comparable (aligned x.2) z g) ∧
      (Below r (aligned y.2) z' g ↔ Below r (aligned x.2) z g) := by
    intro z z' hzz g
    obtain ⟨a, b, hb, h1⟩ := hx g
    obtain ⟨c, d, hd, h2⟩ := hzz g
    constructor
    · unfold Comparable
      rw [Verif.Eda.varies_affine hb h1, Verif.Eda.varies_affine hd h2]
    · unfold Below
      rw [Verif.Eda.variation_affine h1, Verif.Eda.variation_affine h2,
        Verif.Eda.covariation_affine h1 h2, abs_mul]
      have e : b ^ 2 * Verif.Eda.Spec.variation (aligned x.2 g) * (d ^ 2 * Verif.Eda.Spec.variation (z g)) =
        (b * d) ^ 2 * (Verif.Eda.Spec.variation (aligned x.2 g) * Verif.Eda.Spec.variation (z g)) := by
        ring
      rw [e, Real.sqrt_mul (sq_nonneg _), Real.sqrt_sq_eq_abs, mul_left_comm]
      exact mul_lt_mul_iff_right₀ (abs_pos.2 (mul_ne_zero hb hd))
  have hmem : ∀ {zs zs' : List (String × (Fin G → Fin T → ℝ))},
      List.Forall₂ (fun z z' => SameUnits z.2 z'.2) zs zs' →
      (SomewhereComparable (aligned y.2) (zs'.map (·.2)) ↔
        SomewhereComparable (aligned x.2) (zs.map (·.2))) ∧
      (Unrelated r (aligned y.2) (zs'.map (·.2)) ↔ Unrelated r (aligned x.2) (zs.map (·.2))) := by
    intro zs zs' h
    induction h with
    | nil => simp [SomewhereComparable, Unrelated]
    | cons h _ ih =>
      constructor
      · have := ih.1
        unfold SomewhereComparable at this ⊢
        simp only [List.map_cons, List.mem_cons, exists_eq_or_imp]
        rw [this]
        refine or_congr ?_ Iff.rfl
        exact exists_congr fun g => (key h g).1
      · have := ih.2
        unfold Unrelated at this ⊢
        simp only [List.map_cons, List.mem_cons, forall_eq_or_imp]
        rw [this]
        refine and_congr ?_ Iff.rfl
        exact forall_congr' fun g => imp_congr (key h g).1 (key h g).2
  have := hmem hz
  rw [Bool.eq_iff_iff, low_iff, low_iff, this.1, this.2]

/-- **C95.** Without controls the check asks for controls, lists no channel and labels an empty
matrix with the paid channels. -/
theorem bias_no_controls {r : ℝ} {d : Data G lead T}
    {xs : List (String × (Fin G → Fin (lead + T) → ℝ))} (hx : d.paid = some xs)
    (hz : controlsOf d = []) : ∃ res, potentialBias r d = .ok res ∧ res.case = .noControls ∧
      res.channels = [] ∧ res.low = [] ∧ res.matrix.map (·.1) = xs.map (·.1) ∧
      ∀ row ∈ res.matrix, row.2 = [] := by
  unfold potentialBias
  rw [hx]
  unfold controlsOf at hz
  rcases hc : d.controls with _ | (_ | ⟨z, zs⟩)
  · exact ⟨_, rfl, rfl, rfl, rfl, by simp, by simp⟩
  · exact ⟨_, rfl, rfl, rfl, rfl, by simp, by simp⟩
  · rw [hc] at hz; simp at hz

/-- A trend, in one geo at two times. -/
def trend : Fin 1 → Fin (0 + 2) → ℝ := fun _ t => t.val

/-- No change. -/
def flat : Fin 1 → Fin (0 + 2) → ℝ := fun _ _ => 5

/-- The control: the same trend. -/
def gqv : Fin 1 → Fin 2 → ℝ := fun _ t => t.val

/-- **C95, finding.** A channel that does not vary at the times of the model has no correlation with
any control, but passes the check: all channels have "sufficient correlation with control
variables", whatever the threshold. -/
theorem constant_channel_passes {r : ℝ} {d : Data G lead T}
    {xs : List (String × (Fin G → Fin (lead + T) → ℝ))} (hx : d.paid = some xs)
    (hz : controlsOf d ≠ []) (hT : 2 ≤ T)
    (hc : ∀ x ∈ xs, ∀ g, ¬ Verif.Eda.Spec.Varies (aligned x.2 g)) :
    ∃ res, potentialBias r d = .ok res ∧ res.case = .pass ∧ ∀ row ∈ res.channels, row.maxAbs = none := by
  obtain ⟨res, h1, _, h3, _, _, h6⟩ := bias_exact (r := r) hx hz hT
  have hsc : ∀ x ∈ xs, ¬ SomewhereComparable (aligned x.2) ((controlsOf d).map (·.2)) := by
    rintro x hx' ⟨z, _, g, hcmp⟩
    exact hc x hx' g hcmp.1
  have e := potentialBias_eq (r := r) hx hz hT
  rw [h1] at e
  injection e with e
  refine ⟨res, h1, h6.2 ?_, ?_⟩
  · intro row hrow
    rw [e] at hrow
    obtain ⟨x, hx', rfl⟩ := List.mem_map.1 hrow
    rw [← Bool.not_eq_true, low_iff]
    exact fun h => hsc x hx' h.1
  · intro row hrow
    rw [e] at hrow
    obtain ⟨x, hx', rfl⟩ := List.mem_map.1 hrow
    exact maxAbs_none.2 (hsc x hx')

example : ∃ res, potentialBias (1 / 10)
    (⟨some [("tv", flat)], none, some [("gqv", gqv)]⟩ : Data 1 0 2) = .ok res ∧ res.case = .pass := by
  obtain ⟨res, h1, h2, _⟩ := constant_channel_passes (r := 1 / 10)
    (d := (⟨some [("tv", flat)], none, some [("gqv", gqv)]⟩ : Data 1 0 2)) (xs := [("tv", flat)]) rfl
    (by simp [controlsOf]) (le_refl _) (by
      intro x hx g
      rw [List.mem_singleton] at hx
      subst hx
      rintro ⟨s, t, h⟩
      exact h rfl)
  exact ⟨res, h1, h2⟩

/-- **C95, finding.** The documentation of the check says that it flags the channels whose maximum
correlation exceeds the threshold.  A channel that equals a control is not flagged: the check flags
the channels below the threshold. -/
theorem documented_direction_reversed : ∃ res, potentialBias (1 / 10)
    (⟨some [("tv", trend)], none, some [("gqv", gqv)]⟩ : Data 1 0 2) = .ok res ∧ res.case = .pass ∧
      res.low = [] ∧ ∃ row ∈ res.channels, row.maxAbs = some 1 := by
  have hz : controlsOf (⟨some [("tv", trend)], none, some [("gqv", gqv)]⟩ : Data 1 0 2) ≠ [] := by
    simp [controlsOf]
  obtain ⟨res, h1, _, h3, h4, _, h6⟩ := bias_exact (r := 1 / 10)
    (d := (⟨some [("tv", trend)], none, some [("gqv", gqv)]⟩ : Data 1 0 2)) (xs := [("tv", trend)]) rfl
    hz (le_refl _)
  have e := potentialBias_eq (r := 1 / 10)
    (d := (⟨some [("tv", trend)], none, some [("gqv", gqv)]⟩ : Data 1 0 2)) (xs := [("tv", trend)]) rfl
    hz (le_refl _)
  rw [h1] at e
  injection e with e
  have hav : ∀ g, aligned (lead := 0) (T := 2) trend g = gqv g := by
    intro g; funext t; simp [aligned, trend, gqv]
  have hvar : ∀ g, Verif.Eda.Spec.Varies (gqv g) := fun g => ⟨0, 1, by simp [gqv]⟩
  have hcmp : ∀ g, Comparable (aligned (lead := 0) (T := 2) trend) gqv g := fun g => by
    unfold Comparable; rw [hav]; exact ⟨hvar g, hvar g⟩
  have hcorr : ∀ g, corrAt (lead := 0) trend gqv g = some 1 := by
    intro g
    cases hr : corrAt (lead := 0) trend gqv g with
    | none => exact absurd (hcmp g) (corrAt_none.1 hr)
    | some q =>
      obtain ⟨_, e⟩ := corrAt_some hr
      rw [hav, Verif.Eda.covariation_self] at e
      have hp := (Verif.Eda.variation_pos (gqv g)).2 (hvar g)
      rw [Real.sqrt_mul_self hp.le, div_self hp.ne'] at e
      rw [e]
  have hmax : maxAbs (lead := 0) [("gqv", gqv)] trend = some 1 := by
    cases hm : maxAbs (lead := 0) [("gqv", gqv)] trend with
    | none =>
      exact absurd ⟨gqv, by simp, 0, hcmp 0⟩ (maxAbs_none.1 hm)
    | some m =>
      obtain ⟨⟨g, z, hz', q, hq, e'⟩, _⟩ := maxAbs_some hm
      rw [List.mem_singleton] at hz'
      subst hz'
      rw [hcorr g] at hq
      injection hq with hq
      rw [← e', ← hq, abs_one]
  have hlow : (biasChannel (lead := 0) (1 / 10) [("gqv", gqv)] ("tv", trend)).low = false := by
    simp only [biasChannel, hmax]
    norm_num
  have hch : res.channels = [biasChannel (lead := 0) (1 / 10) [("gqv", gqv)] ("tv", trend)] := by
    rw [e]; rfl
  refine ⟨res, h1, h6.2 ?_, ?_, ?_⟩
  · intro row hrow
    rw [hch, List.mem_singleton] at hrow
    rw [hrow]; exact hlow
  · rw [h4, hch, List.filter_cons_of_neg (by rw [hlow]; decide)]; rfl
  · rw [hch]
    exact ⟨_, List.mem_singleton.2 rfl, hmax⟩

end Verif.Calibration.Props
