import Verif.Spec.Identify
import Mathlib.Tactic

/-!
# The checks for variables without variation and channels without spend
-/

namespace Verif.Identify.Props

open Verif.Identify Verif.Identify.Spec

theorem flat_iff {n : ℕ} (hn : 0 < n) (x : ℕ → ℚ) : flat n x = true ↔ NearlyConstant n x := by
  have hq : (0 : ℚ) < n := by exact_mod_cast hn
  unfold flat variance NearlyConstant
  simp only [decide_eq_true_eq]
  rw [div_lt_iff₀ hq]
  have e : ((1 : ℚ) / 10 ^ 4) ^ 2 * n = n * (1 / 10 ^ 8) := by norm_num; ring
  rw [e]
  constructor
  · intro h
    exact ⟨_, by field_simp, h⟩
  · rintro ⟨m, hm, h⟩
    have : m = ((List.range n).map x).sum / n := by rw [← hm]; field_simp
    rw [← this]
    exact h

theorem count_flatten (rows : List (List ℕ)) (h : ∀ r ∈ rows, r.Nodup) (c : ℕ) :
    rows.flatten.count c ≤ rows.length ∧ (rows.flatten.count c = rows.length ↔ ∀ r ∈ rows, c ∈ r) := by
  induction rows with
  | nil => simp
  | cons r rest ih =>
    obtain ⟨h1, h2⟩ := ih fun s hs => h s (List.mem_cons_of_mem _ hs)
    have hr := h r List.mem_cons_self
    rw [List.flatten_cons, List.count_append, List.length_cons, List.forall_mem_cons]
    by_cases hc : c ∈ r
    · rw [List.count_eq_one_of_mem hr hc]
      refine ⟨by omega, ?_⟩
      rw [← h2]
      constructor
      · intro hh; exact ⟨hc, by omega⟩
      · rintro ⟨-, hh⟩; omega
    · rw [List.count_eq_zero_of_not_mem hc]
      refine ⟨by omega, ?_⟩
      constructor
      · intro hh; omega
      · rintro ⟨hh, -⟩; exact absurd hh hc

theorem mem_badNames {names : List String} {n : ℕ} (hn : 0 < n) (p : ℕ → ℕ → Bool) (s : String) :
    s ∈ badNames names (columnsWhere n names.length p) n ↔
      ∃ v, ∃ h : v < names.length, names[v] = s ∧ ∀ r < n, p r v = true := by
  have hrows : columnsWhere n names.length p =
      ((List.range n).map fun r => (List.range names.length).filter fun c => p r c).flatten := by
    rw [columnsWhere, List.flatMap_def]
  have hnd : ∀ r ∈ ((List.range n).map fun r => (List.range names.length).filter fun c => p r c),
      r.Nodup := by
    intro r hr
    rw [List.mem_map] at hr
    obtain ⟨i, -, rfl⟩ := hr
    exact List.nodup_range.filter _
  have hcount : ∀ v, (columnsWhere n names.length p).count v = n ↔
      ∀ r < n, v < names.length ∧ p r v = true := by
    intro v
    have := (count_flatten _ hnd v).2
    rw [List.length_map, List.length_range] at this
    rw [hrows, this]
    simp only [List.mem_map, List.mem_range, forall_exists_index, and_imp, forall_apply_eq_imp_iff₂,
      List.mem_filter]
  have hmem : ∀ v, (columnsWhere n names.length p).count v = n →
      v ∈ columnsWhere n names.length p := by
    intro v hv
    rw [← List.count_pos_iff]
    omega
  unfold badNames uniqueWithCounts
  simp only [List.mem_map, List.mem_filter, List.mem_eraseDups, decide_eq_true_eq]
  constructor
  · rintro ⟨q, ⟨⟨v, hv, rfl⟩, hc⟩, rfl⟩
    have h := (hcount v).1 hc
    have hv' : v < names.length := (h 0 hn).1
    exact ⟨v, hv', by simp [hv'], fun r hr => (h r hr).2⟩
  · rintro ⟨v, hv, rfl, h⟩
    have hc := (hcount v).2 fun r hr => ⟨hv, h r hr⟩
    exact ⟨(v, _), ⟨⟨v, hmem v hc, rfl⟩, hc⟩, by simp [hv]⟩

theorem badNames_nil {names : List String} {n : ℕ} (hn : 0 < n) (p : ℕ → ℕ → Bool) :
    badNames names (columnsWhere n names.length p) n = [] ↔
      ∀ v < names.length, ¬ ∀ r < n, p r v = true := by
  rw [List.eq_nil_iff_forall_not_mem]
  constructor
  · intro h v hv hh
    exact h names[v] ((mem_badNames hn p _).2 ⟨v, hv, rfl, hh⟩)
  · intro h s hs
    obtain ⟨v, hv, -, hh⟩ := (mem_badNames hn p s).1 hs
    exact h v hv hh

/-- Variables with the same scaled values in all geos are refused if there is a knot for each time; the
message names exactly them. -/
theorem checkGeo_spec {c : Ctx} (hc : 0 < c.nGeos) {n : String} {g : Group} (hg : 0 < g.nTimes) :
    (checkGeo c n g = .ok () ↔
      (c.nKnots = c.nTimes → ∀ v < g.names.length, ¬ SameInAllGeos c g v)) ∧
    (∀ e, checkGeo c n g = .error e → ∃ bad, e = .noGeoVariation n bad ∧
      ∀ s, s ∈ bad ↔ ∃ v, ∃ h : v < g.names.length, g.names[v] = s ∧ SameInAllGeos c g v) := by
  have hs : ∀ v, SameInAllGeos c g v ↔
      ∀ t < g.nTimes, flat c.nGeos (fun i => g.x i t v) = true := by
    intro v
    exact forall₂_congr fun t _ => (flat_iff hc _).symm
  unfold checkGeo
  simp only
  have hb := badNames_nil (names := g.names) hg fun t v => flat c.nGeos fun i => g.x i t v
  by_cases h : badNames g.names (columnsWhere g.nTimes g.names.length
      fun t v => flat c.nGeos fun i => g.x i t v) g.nTimes ≠ [] ∧ c.nKnots = c.nTimes
  · rw [if_pos h]
    refine ⟨⟨fun hh => (by cases hh), fun hh => ?_⟩, ?_⟩
    · exfalso
      apply h.1
      rw [hb]
      intro v hv
      rw [← hs]
      exact hh h.2 v hv
    · intro e he
      cases he
      refine ⟨_, rfl, fun s => ?_⟩
      rw [mem_badNames hg]
      simp only [hs]
  · rw [if_neg h]
    refine ⟨⟨fun _ hk v hv => ?_, fun _ => rfl⟩, fun e he => (by cases he)⟩
    have : badNames g.names (columnsWhere g.nTimes g.names.length
        fun t v => flat c.nGeos fun i => g.x i t v) g.nTimes = [] := by
      by_contra hne
      exact h ⟨hne, hk⟩
    rw [hs]
    exact hb.1 this v hv

/-- Variables with the same scaled values at all times are refused; the message names exactly them. -/
theorem checkTime_spec {c : Ctx} (hc : 0 < c.nGeos) {n : String} {g : Group} (hg : 0 < g.nTimes) :
    (checkTime c n g = .ok () ↔ ∀ v < g.names.length, ¬ SameAtAllTimes c g v) ∧
    (∀ e, checkTime c n g = .error e → ∃ bad, e = .noTimeVariation n bad ∧
      ∀ s, s ∈ bad ↔ ∃ v, ∃ h : v < g.names.length, g.names[v] = s ∧ SameAtAllTimes c g v) := by
  have hs : ∀ v, SameAtAllTimes c g v ↔
      ∀ i < c.nGeos, flat g.nTimes (fun t => g.x i t v) = true := by
    intro v
    exact forall₂_congr fun t _ => (flat_iff hg _).symm
  unfold checkTime
  simp only
  have hb := badNames_nil (names := g.names) hc fun i v => flat g.nTimes fun t => g.x i t v
  by_cases h : badNames g.names (columnsWhere c.nGeos g.names.length
      fun i v => flat g.nTimes fun t => g.x i t v) c.nGeos ≠ []
  · rw [if_pos h]
    refine ⟨⟨fun hh => (by cases hh), fun hh => ?_⟩, ?_⟩
    · exfalso
      apply h
      rw [hb]
      intro v hv
      rw [← hs]
      exact hh v hv
    · intro e he
      cases he
      refine ⟨_, rfl, fun s => ?_⟩
      rw [mem_badNames hc]
      simp only [hs]
  · rw [if_neg h]
    refine ⟨⟨fun _ v hv => ?_, fun _ => rfl⟩, fun e he => (by cases he)⟩
    rw [hs]
    exact hb.1 (not_not.1 h) v hv

/-- Channels without spend are refused; the message names exactly them. -/
theorem checkSpend_spec (s : Option (List (String × ℚ))) :
    (checkSpend s = .ok () ↔ ∀ l, s = some l → ∀ p ∈ l, p.2 ≠ 0) ∧
    (∀ e, checkSpend s = .error e → ∃ bad l, e = .zeroSpend bad ∧ s = some l ∧
      ∀ n, n ∈ bad ↔ (n, (0 : ℚ)) ∈ l) := by
  cases s with
  | none => simp [checkSpend]
  | some l =>
    unfold checkSpend
    simp only
    by_cases h : (l.filter fun p => p.2 = 0).map (fun p => p.1) ≠ []
    · rw [if_pos h]
      obtain ⟨n, hn⟩ := List.exists_mem_of_ne_nil _ h
      simp only [List.mem_map, List.mem_filter, decide_eq_true_eq] at hn
      obtain ⟨p, ⟨hp, hz⟩, -⟩ := hn
      refine ⟨⟨fun hh => (by cases hh), fun hh => absurd hz (hh l rfl p hp)⟩, ?_⟩
      intro e he
      cases he
      refine ⟨_, l, rfl, rfl, fun n => ?_⟩
      simp only [List.mem_map, List.mem_filter, decide_eq_true_eq]
      constructor
      · rintro ⟨⟨a, b⟩, ⟨h1, h2⟩, rfl⟩
        simp only at h2
        subst h2
        exact h1
      · intro hh
        exact ⟨(n, 0), ⟨hh, rfl⟩, rfl⟩
    · rw [if_neg h]
      refine ⟨⟨fun _ l' hl p hp hz => ?_, fun _ => rfl⟩, fun e he => (by cases he)⟩
      cases hl
      apply h
      apply List.ne_nil_of_mem (a := p.1)
      exact List.mem_map.2 ⟨p, List.mem_filter.2 ⟨hp, by simpa using hz⟩, rfl⟩

theorem eachGroup_iff (f : String → Group → Except Err Unit) (l : List (String × Option Group)) :
    eachGroup f l = .ok () ↔ ∀ n g, (n, some g) ∈ l → f n g = .ok () := by
  induction l with
  | nil => simp [eachGroup]
  | cons p rest ih =>
    obtain ⟨n, o⟩ := p
    cases o with
    | none => simp [eachGroup, ih]
    | some g =>
      simp only [eachGroup]
      cases h : f n g with
      | error e =>
        constructor
        · intro hh; cases hh
        · intro hh; rw [hh n g List.mem_cons_self] at h; cases h
      | ok u =>
        simp only [ih, List.mem_cons]
        constructor
        · rintro hh m k (hk | hk)
          · cases hk; exact h
          · exact hh m k hk
        · intro hh m k hk
          exact hh m k (.inr hk)

theorem present_iff (c : Ctx) (g : Group) : Present c g ↔ ∃ n, (n, some g) ∈ groups c := by
  unfold Present groups
  simp only [List.mem_cons, List.not_mem_nil, or_false, Prod.mk.injEq]
  constructor
  · rintro (h | h | h | h | h | h)
    · exact ⟨_, .inl ⟨rfl, h.symm⟩⟩
    · exact ⟨_, .inr (.inl ⟨rfl, h.symm⟩)⟩
    · exact ⟨_, .inr (.inr (.inl ⟨rfl, h.symm⟩))⟩
    · exact ⟨_, .inr (.inr (.inr (.inl ⟨rfl, h.symm⟩)))⟩
    · exact ⟨_, .inr (.inr (.inr (.inr (.inl ⟨rfl, h.symm⟩))))⟩
    · exact ⟨_, .inr (.inr (.inr (.inr (.inr ⟨rfl, h.symm⟩))))⟩
  · rintro ⟨n, ⟨-, h⟩ | ⟨-, h⟩ | ⟨-, h⟩ | ⟨-, h⟩ | ⟨-, h⟩ | ⟨-, h⟩⟩
    · exact .inl h.symm
    · exact .inr (.inl h.symm)
    · exact .inr (.inr (.inl h.symm))
    · exact .inr (.inr (.inr (.inl h.symm)))
    · exact .inr (.inr (.inr (.inr (.inl h.symm))))
    · exact .inr (.inr (.inr (.inr (.inr h.symm))))

/-- Data passes the checks exactly if, with several geos and a knot for each time, no variable is the
same in all geos at each time; no variable is the same at all times in each geo; and every paid channel
has spend. -/
theorem accepted_iff {c : Ctx} (hc : WF c) :
    validate c = .ok () ↔
      (c.nGeos ≠ 1 ∧ c.nKnots = c.nTimes →
        ∀ g, Present c g → ∀ v < g.names.length, ¬ SameInAllGeos c g v) ∧
      (∀ g, Present c g → ∀ v < g.names.length, ¬ SameAtAllTimes c g v) ∧
      (∀ l, c.mediaSpend = some l → ∀ p ∈ l, p.2 ≠ 0) ∧
      (∀ l, c.rfSpend = some l → ∀ p ∈ l, p.2 ≠ 0) := by
  have hgeo : eachGroup (checkGeo c) (groups c) = .ok () ↔
      (c.nKnots = c.nTimes → ∀ g, Present c g → ∀ v < g.names.length, ¬ SameInAllGeos c g v) := by
    rw [eachGroup_iff]
    constructor
    · intro h hk g hg
      obtain ⟨n, hn⟩ := (present_iff c g).1 hg
      exact (checkGeo_spec hc.geos (hc.times g hg)).1.1 (h n g hn) hk
    · intro h n g hn
      have hg := (present_iff c g).2 ⟨n, hn⟩
      exact (checkGeo_spec hc.geos (hc.times g hg)).1.2 fun hk => h hk g hg
  have htime : eachGroup (checkTime c) (groups c) = .ok () ↔
      ∀ g, Present c g → ∀ v < g.names.length, ¬ SameAtAllTimes c g v := by
    rw [eachGroup_iff]
    constructor
    · intro h g hg
      obtain ⟨n, hn⟩ := (present_iff c g).1 hg
      exact (checkTime_spec hc.geos (hc.times g hg)).1.1 (h n g hn)
    · intro h n g hn
      have hg := (present_iff c g).2 ⟨n, hn⟩
      exact (checkTime_spec hc.geos (hc.times g hg)).1.2 (h g hg)
  have hgeo' : (if c.nGeos = 1 then .ok () else eachGroup (checkGeo c) (groups c)) =
      (.ok () : Except Err Unit) ↔
      (c.nGeos ≠ 1 ∧ c.nKnots = c.nTimes →
        ∀ g, Present c g → ∀ v < g.names.length, ¬ SameInAllGeos c g v) := by
    by_cases h1 : c.nGeos = 1
    · simp [h1]
    · rw [if_neg h1, hgeo]
      exact ⟨fun h hh => h hh.2, fun h hh => h ⟨h1, hh⟩⟩
  rw [← hgeo', ← htime, ← (checkSpend_spec c.mediaSpend).1, ← (checkSpend_spec c.rfSpend).1]
  unfold validate
  cases (if c.nGeos = 1 then .ok () else eachGroup (checkGeo c) (groups c) : Except Err Unit) with
  | error e => simp
  | ok u =>
    cases eachGroup (checkTime c) (groups c) with
    | error e => simp
    | ok u =>
      cases checkSpend c.mediaSpend with
      | error e => simp
      | ok u => simp

/-! ### What the tolerance means -/

/-- Equal values are constant. -/
theorem equal_nearlyConstant {n : ℕ} (x : ℕ → ℚ) (a : ℚ) (hn : 0 < n) (h : ∀ i < n, x i = a) :
    NearlyConstant n x := by
  have h1 : (List.range n).map x = List.replicate n a := by
    rw [List.eq_replicate_iff]
    refine ⟨by simp, fun b hb => ?_⟩
    obtain ⟨i, hi, rfl⟩ := List.mem_map.1 hb
    exact h i (List.mem_range.1 hi)
  have h2 : ((List.range n).map fun i => (x i - a) ^ 2) = List.replicate n 0 := by
    rw [List.eq_replicate_iff]
    refine ⟨by simp, fun b hb => ?_⟩
    obtain ⟨i, hi, rfl⟩ := List.mem_map.1 hb
    rw [h i (List.mem_range.1 hi)]; simp
  refine ⟨a, ?_, ?_⟩
  · rw [h1, List.sum_replicate, nsmul_eq_mul]
  · rw [h2, List.sum_replicate, nsmul_eq_mul]
    have : (0 : ℚ) < n := by exact_mod_cast hn
    rw [mul_zero]
    positivity

theorem single_le_sum (l : List ℕ) (f : ℕ → ℚ) (hf : ∀ i, 0 ≤ f i) {i : ℕ} (hi : i ∈ l) :
    f i ≤ (l.map f).sum := List.single_le_sum (by
      intro x hx
      obtain ⟨j, -, rfl⟩ := List.mem_map.1 hx
      exact hf j) _ (List.mem_map_of_mem hi)

/-- If two values differ by more than `2e-4` times the square root of their number, they are not. -/
theorem differing_not_nearlyConstant {n : ℕ} (x : ℕ → ℚ) {i j : ℕ} (hi : i < n) (hj : j < n)
    (h : 4 * n * (1 / 10 ^ 8) ≤ (x i - x j) ^ 2) : ¬ NearlyConstant n x := by
  rintro ⟨m, -, hs⟩
  have hf : ∀ k, 0 ≤ (x k - m) ^ 2 := fun k => sq_nonneg _
  have h1 := single_le_sum (List.range n) (fun k => (x k - m) ^ 2) hf (List.mem_range.2 hi)
  have h2 := single_le_sum (List.range n) (fun k => (x k - m) ^ 2) hf (List.mem_range.2 hj)
  nlinarith [sq_nonneg (x i - m + (x j - m))]

/-- In particular a variable equal in all geos is refused with a knot for each time. -/
theorem equal_in_all_geos_refused {c : Ctx} (hc : WF c) (h1 : c.nGeos ≠ 1) (hk : c.nKnots = c.nTimes)
    {g : Group} (hg : Present c g) {v : ℕ} (hv : v < g.names.length)
    (heq : ∀ t < g.nTimes, ∀ i < c.nGeos, g.x i t v = g.x 0 t v) : validate c ≠ .ok () := by
  intro h
  refine ((accepted_iff hc).1 h).1 ⟨h1, hk⟩ g hg v hv fun t ht => ?_
  exact equal_nearlyConstant _ (g.x 0 t v) hc.geos fun i hi => heq t ht i hi

/-- And a variable equal at all times is refused. -/
theorem equal_at_all_times_refused {c : Ctx} (hc : WF c)
    {g : Group} (hg : Present c g) {v : ℕ} (hv : v < g.names.length)
    (heq : ∀ i < c.nGeos, ∀ t < g.nTimes, g.x i t v = g.x i 0 v) : validate c ≠ .ok () := by
  intro h
  refine ((accepted_iff hc).1 h).2.1 g hg v hv fun i hi => ?_
  exact equal_nearlyConstant _ (g.x i 0 v) (hc.times g hg) fun t ht => heq i hi t ht

/-! ### Concrete cases -/

/-- Two geos, two times; the second variable of the media is the same in both geos. -/
def demo (knots : ℕ) : Ctx where
  nGeos := 2
  nTimes := 2
  nKnots := knots
  controls := none
  nonMedia := none
  media := some ⟨["tv", "radio"], 2, fun g t v => if v = 0 then g + t else t⟩
  reach := none
  organicMedia := none
  organicReach := none
  mediaSpend := some [("tv", 5), ("radio", 1)]
  rfSpend := none

theorem demo_wf (k : ℕ) : WF (demo k) where
  geos := Nat.zero_lt_two
  times := by
    intro g hg
    rcases hg with h | h | h | h | h | h <;> cases h
    exact Nat.zero_lt_two

example : validate (demo 1) = .ok () := by decide +kernel
example : validate (demo 2) = .error (.noGeoVariation "media" ["radio"]) := by decide +kernel
example : validate { demo 1 with mediaSpend := some [("tv", 0), ("radio", 1)] } =
    .error (.zeroSpend ["tv"]) := by decide +kernel
example : validate { demo 2 with
    controls := some ⟨["gqv"], 2, fun g _ _ => g⟩,
    media := none } = .error (.noTimeVariation "controls" ["gqv"]) := by decide +kernel

end Verif.Identify.Props
