import Mathlib.Tactic
import Verif.Spec.MediaCurves
import Verif.Props.Adstock
import Verif.Props.Summary

/-!
# C81: the adstock decay table and the Hill curve table
-/

namespace Verif.MediaCurves.Props

open Verif.Mmm Verif.Adstock Verif.Adstock.Spec Verif.Summary Verif.Summary.Spec Verif.MediaCurves
  Verif.MediaCurves.Spec

/-! ### Adstock decay -/

theorem steps_zero (m : ℕ) : stepsPerPeriod m = 0 ↔ 1000 < m := by
  unfold stepsPerPeriod shownLag
  constructor
  · intro h
    by_contra hm
    have : 0 < 1000 / max m 1 := Nat.div_pos (by omega) (by omega)
    omega
  · intro h
    have : 1000 / max m 1 = 0 := Nat.div_eq_of_lt (by omega)
    omega

theorem kinds_nil (ctx : Ctx) : kinds ctx = [] ↔ ¬ ∃ kd, 0 < (kindOf ctx kd).n := by
  unfold kinds
  rw [List.filter_eq_nil_iff]
  constructor
  · rintro h ⟨kd, hk⟩
    exact h kd (by cases kd <;> simp) (by simpa using hk)
  · rintro h kd - hk
    exact h ⟨kd, by simpa using hk⟩

theorem mem_kinds (ctx : Ctx) (kd : Kind) : kd ∈ kinds ctx ↔ 0 < (kindOf ctx kd).n := by
  unfold kinds
  rw [List.mem_filter]
  cases kd <;> simp

/-- **C81 (adstock decay).** The table exists exactly when both prior and posterior were sampled, the
model has a channel with adstock, and the maximum lag is at most 1000. -/
theorem decay_accepted_iff (np : Np) (ctx : Ctx) (names : Kind → ℕ → String) (s : Samples) (level : ℝ) :
    (∃ rows, adstockDecay np ctx names s level = .ok rows) ↔
      s.prior.isSome ∧ s.posterior.isSome ∧ (∃ kd, 0 < (kindOf ctx kd).n) ∧ ctx.maxLag ≤ 1000 := by
  obtain ⟨p, q⟩ := s
  cases p with
  | none => simp [adstockDecay]
  | some p =>
    cases q with
    | none => simp [adstockDecay]
    | some q =>
      simp only [adstockDecay, Option.isSome_some, true_and]
      by_cases h0 : stepsPerPeriod ctx.maxLag = 0
      · rw [if_pos h0]
        have := (steps_zero _).1 h0
        constructor
        · rintro ⟨_, h⟩; cases h
        · rintro ⟨_, h⟩; omega
      · rw [if_neg h0]
        have hm : ctx.maxLag ≤ 1000 := by
          by_contra h; exact h0 ((steps_zero _).2 (by omega))
        by_cases hk : kinds ctx = []
        · rw [if_pos hk]
          have := (kinds_nil ctx).1 hk
          constructor
          · rintro ⟨_, h⟩; cases h
          · rintro ⟨h, -⟩; exact absurd h this
        · rw [if_neg hk]
          refine ⟨fun _ => ⟨?_, hm⟩, fun _ => ⟨_, rfl⟩⟩
          by_contra h
          exact hk ((kinds_nil ctx).2 h)

/-- The groups, when the table exists. -/
theorem decay_ok {np : Np} {ctx : Ctx} {names : Kind → ℕ → String} {s : Samples} {level : ℝ}
    {rows : List DecayRow} (h : adstockDecay np ctx names s level = .ok rows) :
    ∃ p q, s.prior = some p ∧ s.posterior = some q ∧ ctx.maxLag ≤ 1000 ∧
      rows = (kinds ctx).flatMap (adstockFrame np ctx names level p q) := by
  have hm := ((decay_accepted_iff np ctx names s level).1 ⟨_, h⟩).2.2.2
  obtain ⟨p, q⟩ := s
  cases p with
  | none => simp [adstockDecay] at h
  | some p =>
    cases q with
    | none => simp [adstockDecay] at h
    | some q =>
      refine ⟨p, q, rfl, rfl, hm, ?_⟩
      simp only [adstockDecay] at h
      split_ifs at h
      exact (Except.ok.inj h).symm

theorem mem_sorted (ctx : Ctx) (names : Kind → ℕ → String) (kd : Kind) (nc : String × ℕ) :
    nc ∈ sortedChannels ctx names kd ↔ nc.2 < (kindOf ctx kd).n ∧ nc.1 = names kd nc.2 := by
  unfold sortedChannels
  rw [List.mem_insertionSort, List.mem_map]
  constructor
  · rintro ⟨c, hc, rfl⟩
    exact ⟨List.mem_range.1 hc, rfl⟩
  · rintro ⟨h, e⟩
    exact ⟨nc.2, List.mem_range.2 h, by rw [← e]⟩

theorem mem_adstockFrame {np : Np} {ctx : Ctx} {names : Kind → ℕ → String} {level : ℝ}
    {p q : List Params} {kd : Kind} {r : DecayRow} :
    r ∈ adstockFrame np ctx names level p q kd ↔ ∃ c < (kindOf ctx kd).n, ∃ k < nTimes ctx.maxLag,
      ∃ dist, r = decayRow np ctx names level kd p q c k dist := by
  unfold adstockFrame
  simp only [List.mem_flatMap, List.mem_map, List.mem_range, mem_sorted]
  constructor
  · rintro ⟨nc, ⟨hc, -⟩, k, hk, dist, -, rfl⟩
    exact ⟨nc.2, hc, k, hk, dist, rfl⟩
  · rintro ⟨c, hc, k, hk, dist, rfl⟩
    exact ⟨(names kd c, c), ⟨hc, rfl⟩, k, hk, dist, by cases dist <;> simp, rfl⟩

theorem length_adstockFrame {np : Np} {ctx : Ctx} {names : Kind → ℕ → String} {level : ℝ}
    {p q : List Params} {kd : Kind} :
    (adstockFrame np ctx names level p q kd).length = (kindOf ctx kd).n * (nTimes ctx.maxLag * 2) := by
  unfold adstockFrame
  simp [List.length_flatMap, sortedChannels]

theorem sum_kinds (ctx : Ctx) (f : Kind → ℕ) (hf : ∀ kd, (kindOf ctx kd).n = 0 → f kd = 0) :
    ((kinds ctx).map f).sum = f .media + f .rf + f .organicMedia + f .organicRf := by
  have h1 := hf .media
  have h2 := hf .rf
  have h3 := hf .organicMedia
  have h4 := hf .organicRf
  unfold kinds
  by_cases a1 : (kindOf ctx .media).n = 0 <;> by_cases a2 : (kindOf ctx .rf).n = 0 <;>
    by_cases a3 : (kindOf ctx .organicMedia).n = 0 <;> by_cases a4 : (kindOf ctx .organicRf).n = 0 <;>
    simp [List.filter_cons, Nat.pos_iff_ne_zero, *] <;> omega

theorem decayOf_channel (single : Decay ⊕ List Decay) (c : ℕ) (α : ℝ) (W : ℕ) (l : ℝ) :
    channelWeightAt single c α W l = weightAt (decayOf single c) α W l := by
  cases single with
  | inl d => rfl
  | inr ds =>
    simp only [channelWeightAt, decayOf, List.getD_eq_getElem?_getD]
    by_cases h : ds[c]? = some .binomial
    · rw [if_pos h, h]; rfl
    · rw [if_neg h]
      cases e : ds[c]? with
      | none => rfl
      | some d =>
        cases d with
        | geometric => rfl
        | binomial => exact absurd e h

theorem weightAt_eq {d : Decay} {α : ℝ} {W : ℕ} {l : ℝ} (hl : l ≤ W) (hW : 0 < W) :
    weightAt d α W l = some (retainedAt d α W l) := by
  have hW' : (0 : ℝ) < W := by exact_mod_cast hW
  cases d with
  | geometric => rfl
  | binomial =>
    have hb : ¬ 1 - l / (W : ℝ) < 0 := by
      have : l / (W : ℝ) ≤ 1 := by rw [div_le_one hW']; exact hl
      linarith
    simp only [weightAt, retainedAt, if_neg hb, Option.some.injEq]
    unfold mapAlphaBinomial
    by_cases hα : α = 0
    · rw [if_pos hα, if_pos hα]
      unfold powExt
      have : (1 - l / (W : ℝ) = 1) ↔ l = 0 := by
        constructor
        · intro h
          have : l / (W : ℝ) = 0 := by linarith
          rcases div_eq_zero_iff.1 this with h | h
          · exact h
          · exact absurd h hW'.ne'
        · rintro rfl; simp
      by_cases h0 : l = 0
      · rw [if_pos h0, if_pos (this.2 h0)]
      · rw [if_neg h0, if_neg (fun h => h0 (this.1 h))]
    · rw [if_neg hα, if_neg hα]; rfl

theorem statN_some (np : Np) (level : ℝ) (st : Stat) (draws : List Params) (f : Params → ℝ) :
    statN np level st (draws.map fun p => some (f p)) =
      some (summaryOf np level (draws.map f) st) := by
  unfold statN
  rw [if_neg (by simp)]
  simp only [List.map_map, Option.some.injEq]
  have : ((fun x : Option ℝ => x.getD 0) ∘ fun p => some (f p)) = f := rfl
  rw [this]
  cases st <;> rfl

theorem time_bounds {m k : ℕ} (hm : m ≤ 1000) (hk : k < nTimes m) :
    0 ≤ timeAt m k ∧ timeAt m k < (max m 1 : ℕ) := by
  have hs : stepsPerPeriod m ≠ 0 := fun h => by have := (steps_zero m).1 h; omega
  have hs' : (0 : ℝ) < stepsPerPeriod m := by exact_mod_cast Nat.pos_of_ne_zero hs
  unfold timeAt
  refine ⟨by positivity, ?_⟩
  rw [div_lt_iff₀ hs']
  unfold nTimes shownLag at hk
  exact_mod_cast hk

theorem time_window {ctx : Ctx} {k : ℕ} (hm : ctx.maxLag ≤ 1000) (hlag : ctx.maxLag ≤ ctx.nMediaTimes)
    (hT : 0 < ctx.nMediaTimes) (hk : k < nTimes ctx.maxLag) :
    timeAt ctx.maxLag k ≤ windowOf ctx ∧ 0 < windowOf ctx := by
  have h := (time_bounds hm hk).2
  have hw : max ctx.maxLag 1 ≤ windowOf ctx := by unfold windowOf; omega
  refine ⟨le_trans h.le (by exact_mod_cast hw), by omega⟩

/-- **C81 (adstock decay).** The table has, for every channel with adstock, every time from 0 up to the
maximum lag (at least one period) in steps of one fifth of a period or coarser steps that divide the
period, and for prior and posterior, one row and no other rows.  The row gives mean and credible bounds, over the draws,
of the effect that is retained after that time relative to time 0; it is marked exactly when the time is
a whole number of periods. -/
theorem decay_rows {np : Np} {ctx : Ctx} {names : Kind → ℕ → String} {s : Samples} {level : ℝ}
    {rows : List DecayRow} (h : adstockDecay np ctx names s level = .ok rows)
    (hlag : ctx.maxLag ≤ ctx.nMediaTimes) (hT : 0 < ctx.nMediaTimes) :
    ∃ steps : ℕ, 0 < steps ∧ steps ≤ 5 ∧ (ctx.maxLag ≤ 200 → steps = 5) ∧
      (∀ kd c k dist draws, c < (kindOf ctx kd).n → k < max ctx.maxLag 1 * steps →
        s.group dist = some draws → ∃ r ∈ rows, r.channel = names kd c ∧ r.time = (k : ℝ) / steps ∧
          r.dist = dist ∧ (r.isInt = true ↔ ∃ j : ℕ, r.time = j) ∧
          ∀ col, r.value col = some (summaryOf np level (draws.map fun p =>
            retainedAt (decayOf (kindOf ctx kd).decay c) ((paramsOf p kd).alpha c)
              (min (ctx.maxLag + 1) ctx.nMediaTimes) r.time) (titled col))) ∧
      rows.length = (ctx.media.n + ctx.rf.n + ctx.organicMedia.n + ctx.organicRf.n) *
        (max ctx.maxLag 1 * steps * 2) := by
  obtain ⟨p, q, hp, hq, hm, rfl⟩ := decay_ok h
  have hs : stepsPerPeriod ctx.maxLag ≠ 0 := fun h => by have := (steps_zero _).1 h; omega
  refine ⟨stepsPerPeriod ctx.maxLag, Nat.pos_of_ne_zero hs, by unfold stepsPerPeriod; omega, ?_, ?_, ?_⟩
  · intro h200
    unfold stepsPerPeriod shownLag
    have : 5 ≤ 1000 / max ctx.maxLag 1 := by
      rw [Nat.le_div_iff_mul_le (by omega)]; omega
    omega
  · intro kd c k dist draws hc hk hd
    refine ⟨decayRow np ctx names level kd p q c k dist, ?_, rfl, rfl, rfl, ?_, ?_⟩
    · rw [List.mem_flatMap]
      exact ⟨kd, (mem_kinds ctx kd).2 (by omega), mem_adstockFrame.2 ⟨c, hc, k, hk, dist, rfl⟩⟩
    · simp only [decayRow, decide_eq_true_eq, timeAt]
      have hs' : (stepsPerPeriod ctx.maxLag : ℝ) ≠ 0 := by exact_mod_cast hs
      constructor
      · intro hmod
        obtain ⟨j, hj⟩ := Nat.dvd_of_mod_eq_zero hmod
        refine ⟨j, ?_⟩
        rw [hj]; push_cast; field_simp
      · rintro ⟨j, hj⟩
        rw [div_eq_iff hs'] at hj
        have : k = j * stepsPerPeriod ctx.maxLag := by exact_mod_cast hj
        rw [this]; simp
    · intro col
      obtain ⟨h1, h2⟩ := time_window hm hlag hT hk
      have he : ∀ dr : List Params, effects ctx kd c (timeAt ctx.maxLag k) dr =
          dr.map fun p => some (retainedAt (decayOf (kindOf ctx kd).decay c) ((paramsOf p kd).alpha c)
            (windowOf ctx) (timeAt ctx.maxLag k)) := by
        intro dr
        unfold effects
        apply List.map_congr_left
        intro p _
        rw [decayOf_channel, weightAt_eq h1 h2]
      have hdr : groupOf dist p q = draws := by
        cases dist
        · simp only [Samples.group, hp, Option.some.injEq] at hd; exact hd
        · simp only [Samples.group, hq, Option.some.injEq] at hd; exact hd
      have e1 : (decayRow np ctx names level kd p q c k dist).value col = statN np level col.stat
          (effects ctx kd c (timeAt ctx.maxLag k) draws) := by
        rw [← hdr]; rfl
      rw [e1, he, statN_some]
      cases col <;> rfl
  · rw [List.length_flatMap, sum_kinds ctx _ (fun kd h0 => by rw [length_adstockFrame, h0, Nat.zero_mul])]
    simp only [length_adstockFrame, kindOf, nTimes, shownLag]
    ring

/-- **C81 (order of the decay table).** The rows of paid media come first, then those of reach and frequency,
organic media and organic reach and frequency; within each type they are ordered by channel name, then by time,
the posterior before the prior. -/
theorem decay_order {np : Np} {ctx : Ctx} {names : Kind → ℕ → String} {s : Samples} {level : ℝ}
    {rows : List DecayRow} (h : adstockDecay np ctx names s level = .ok rows)
    (hnames : UniqueNames ctx names) :
    ∃ block : Kind → List DecayRow,
      rows = block .media ++ block .rf ++ block .organicMedia ++ block .organicRf ∧
      ∀ kd, (∀ r ∈ block kd, ∃ c < (kindOf ctx kd).n, r.channel = names kd c) ∧
        (block kd).Pairwise Earlier := by
  obtain ⟨p, q, hp, hq, hm, rfl⟩ := decay_ok h
  have hs : stepsPerPeriod ctx.maxLag ≠ 0 := fun h => by have := (steps_zero _).1 h; omega
  have hs' : (0 : ℝ) < (stepsPerPeriod ctx.maxLag : ℝ) := by exact_mod_cast Nat.pos_of_ne_zero hs
  refine ⟨adstockFrame np ctx names level p q, ?_, ?_⟩
  · have h0 : ∀ kd, (kindOf ctx kd).n = 0 → adstockFrame np ctx names level p q kd = [] := by
      intro kd h0
      rw [← List.length_eq_zero_iff, length_adstockFrame, h0, Nat.zero_mul]
    unfold kinds
    by_cases a1 : (kindOf ctx .media).n = 0 <;> by_cases a2 : (kindOf ctx .rf).n = 0 <;>
      by_cases a3 : (kindOf ctx .organicMedia).n = 0 <;> by_cases a4 : (kindOf ctx .organicRf).n = 0 <;>
      simp [List.filter_cons, Nat.pos_iff_ne_zero, h0, *]
  · intro kd
    constructor
    · intro r hr
      obtain ⟨c, hc, k, -, dist, rfl⟩ := mem_adstockFrame.1 hr
      exact ⟨c, hc, rfl⟩
    · unfold adstockFrame
      rw [List.pairwise_flatMap]
      constructor
      · intro nc _
        rw [List.pairwise_flatMap]
        constructor
        · intro k _
          simp only [List.map_cons, List.map_nil, List.pairwise_cons, List.mem_singleton, forall_eq,
            List.not_mem_nil, IsEmpty.forall_iff, implies_true, List.Pairwise.nil, and_true]
          exact .inr ⟨rfl, .inr ⟨rfl, rfl, rfl⟩⟩
        · refine List.pairwise_lt_range.imp ?_
          intro i j hij x hx y hy
          rw [List.mem_map] at hx hy
          obtain ⟨d1, -, rfl⟩ := hx
          obtain ⟨d2, -, rfl⟩ := hy
          refine .inr ⟨rfl, .inl ?_⟩
          simp only [decayRow, timeAt]
          have : (i : ℝ) < j := by exact_mod_cast hij
          exact div_lt_div_of_pos_right this hs'
      · have hsort : (sortedChannels ctx names kd).Pairwise fun a b => a.1 ≤ b.1 := by
          have : Std.Total fun a b : String × ℕ => a.1 ≤ b.1 := ⟨fun a b => le_total a.1 b.1⟩
          have : IsTrans (String × ℕ) fun a b => a.1 ≤ b.1 := ⟨fun _ _ _ => le_trans⟩
          exact List.pairwise_insertionSort _ _
        have hnd : (sortedChannels ctx names kd).Nodup := by
          refine (List.perm_insertionSort _ _).nodup_iff.2 ?_
          exact List.nodup_range.map fun a b e => by simpa using congrArg Prod.snd e
        refine (List.pairwise_and_iff.2 ⟨hsort, hnd⟩).imp_of_mem ?_
        rintro a b ha hb ⟨hab, hne⟩ x hx y hy
        rw [List.mem_flatMap] at hx hy
        obtain ⟨i, -, hx⟩ := hx
        obtain ⟨j, -, hy⟩ := hy
        rw [List.mem_map] at hx hy
        obtain ⟨d1, -, rfl⟩ := hx
        obtain ⟨d2, -, rfl⟩ := hy
        obtain ⟨ha1, ha2⟩ := (mem_sorted ctx names kd a).1 ha
        obtain ⟨hb1, hb2⟩ := (mem_sorted ctx names kd b).1 hb
        refine .inl ?_
        simp only [decayRow]
        rw [← ha2, ← hb2]
        refine lt_of_le_of_ne hab fun e => hne ?_
        have := (hnames kd a.2 kd b.2 ha1 hb1 (by rw [← ha2, ← hb2, e])).2
        exact Prod.ext e this

/-- **C81 (agreement with the model).** At a whole number of periods within the window, the retained
effect in the table is the weight the model gives to that lag divided by the weight of lag 0. -/
theorem decay_matches_model (d : Decay) (α : ℝ) (W l : ℕ) (h0 : 0 ≤ α) (hl : l < W) (a b : ℝ)
    (ha : (decayWeights d α (List.range W).reverse W true)[W - 1 - l]? = some a)
    (hb : (decayWeights d α (List.range W).reverse W true)[W - 1 - 0]? = some b) :
    retainedAt d α W l = a / b := by
  rw [Adstock.Props.decay_weight_value d α W l hl, Option.some.injEq] at ha
  rw [Adstock.Props.decay_weight_value d α W 0 (by omega), Option.some.injEq] at hb
  subst ha hb
  have hp := retained_sum_pos (d := d) h0 (show 0 < W by omega)
  unfold weight
  rw [retained_zero, div_div_div_cancel_right₀ hp.ne', div_one]
  cases d with
  | geometric => simp [retainedAt, retained]
  | binomial => simp [retainedAt, retained]

theorem retainedAt_zero (d : Decay) (α : ℝ) (W : ℕ) : retainedAt d α W 0 = 1 := by
  cases d <;> simp [retainedAt]

theorem retainedAt_nonneg {d : Decay} {α : ℝ} {W : ℕ} {l : ℝ} (h0 : 0 ≤ α) (hl : l ≤ W) (hW : 0 < W) :
    0 ≤ retainedAt d α W l := by
  have hW' : (0 : ℝ) < W := by exact_mod_cast hW
  cases d with
  | geometric => exact Real.rpow_nonneg h0 _
  | binomial =>
    have : l / (W : ℝ) ≤ 1 := by rw [div_le_one hW']; exact hl
    simp only [retainedAt]
    split_ifs
    · norm_num
    · norm_num
    · exact Real.rpow_nonneg (by linarith) _

theorem retainedAt_anti {d : Decay} {α : ℝ} {W : ℕ} {l l' : ℝ} (h0 : 0 ≤ α) (h1 : α ≤ 1)
    (hl0 : 0 ≤ l) (hll : l ≤ l') (hl : l' < W) : retainedAt d α W l' ≤ retainedAt d α W l := by
  have hW' : (0 : ℝ) < W := by linarith
  cases d with
  | geometric =>
    simp only [retainedAt]
    rcases h0.eq_or_lt with rfl | hpos
    · rcases hl0.eq_or_lt with rfl | hlp
      · rw [Real.rpow_zero]
        rcases hll.eq_or_lt with rfl | hl'
        · simp
        · rw [Real.zero_rpow hl'.ne']; norm_num
      · rw [Real.zero_rpow hlp.ne', Real.zero_rpow (by linarith)]
    · exact Real.rpow_le_rpow_of_exponent_ge hpos h1 hll
  | binomial =>
    simp only [retainedAt]
    by_cases hα : α = 0
    · rw [if_pos hα, if_pos hα]
      by_cases e : l = 0
      · rw [if_pos e]; split_ifs <;> norm_num
      · rw [if_neg e, if_neg (fun h => e (by linarith))]
    · rw [if_neg hα, if_neg hα]
      have hpos : 0 < α := lt_of_le_of_ne h0 (Ne.symm hα)
      have he : 0 ≤ 1 / α - 1 := by
        have : 1 ≤ 1 / α := by rw [le_div_iff₀ hpos]; linarith
        linarith
      refine Real.rpow_le_rpow ?_ ?_ he
      · have : l' / (W : ℝ) ≤ 1 := by rw [div_le_one hW']; linarith
        linarith
      · have : l / (W : ℝ) ≤ l' / W := by gcongr
        linarith

/-- The mean of draws that all lie in an interval lies there. -/
theorem mean_mem {β : Type} (draws : List β) (hne : draws ≠ []) (f : β → ℝ) (lo hi : ℝ)
    (hf : ∀ p ∈ draws, lo ≤ f p ∧ f p ≤ hi) :
    lo ≤ (draws.map f).sum / (draws.map f).length ∧ (draws.map f).sum / (draws.map f).length ≤ hi := by
  have hn : (0 : ℝ) < (draws.map f).length := by
    rw [List.length_map]; exact_mod_cast List.length_pos_of_ne_nil hne
  rw [le_div_iff₀ hn, div_le_iff₀ hn]
  clear hn hne
  induction draws with
  | nil => simp
  | cons p l ih =>
    have h1 := hf p (by simp)
    have h2 := ih fun q hq => hf q (by simp [hq])
    simp only [List.map_cons, List.sum_cons, List.length_cons, List.length_map, Nat.cast_add,
      Nat.cast_one] at *
    constructor <;> nlinarith [h1.1, h1.2, h2.1, h2.2]

/-- The mean respects the order of the draws. -/
theorem mean_mono {β : Type} (draws : List β) (f f' : β → ℝ) (hf : ∀ p ∈ draws, f p ≤ f' p) :
    (draws.map f).sum / (draws.map f).length ≤ (draws.map f').sum / (draws.map f').length := by
  rw [List.length_map, List.length_map]
  apply div_le_div_of_nonneg_right _ (by positivity)
  exact List.sum_le_sum hf

/-- **C81 (shape of the decay).** With `alpha` in `[0, 1]` in every draw, the mean column starts at 1 at
time 0, stays in `[0, 1]` and never increases with time. -/
theorem decay_shape {np : Np} {ctx : Ctx} {names : Kind → ℕ → String} {s : Samples} {level : ℝ}
    {rows : List DecayRow} (h : adstockDecay np ctx names s level = .ok rows)
    (hlag : ctx.maxLag ≤ ctx.nMediaTimes) (hT : 0 < ctx.nMediaTimes)
    (hnames : UniqueNames ctx names)
    (hne : ∀ dist draws, s.group dist = some draws → draws ≠ [])
    (hα : ∀ dist draws, s.group dist = some draws → ∀ p ∈ draws, ∀ kd c,
      0 ≤ (paramsOf p kd).alpha c ∧ (paramsOf p kd).alpha c ≤ 1) :
    (∀ r ∈ rows, ∃ v, r.value .mean = some v ∧ 0 ≤ v ∧ v ≤ 1 ∧ (r.time = 0 → v = 1)) ∧
    ∀ r ∈ rows, ∀ r' ∈ rows, r.channel = r'.channel → r.dist = r'.dist → r.time ≤ r'.time →
      ∀ v v', r.value .mean = some v → r'.value .mean = some v' → v' ≤ v := by
  obtain ⟨p, q, hp, hq, hm, rfl⟩ := decay_ok h
  have key : ∀ kd c k dist, k < nTimes ctx.maxLag → ∃ draws, s.group dist = some draws ∧
      (decayRow np ctx names level kd p q c k dist).value .mean =
        some ((draws.map fun p => retainedAt (decayOf (kindOf ctx kd).decay c) ((paramsOf p kd).alpha c)
          (windowOf ctx) (timeAt ctx.maxLag k)).sum /
          (draws.map fun p => retainedAt (decayOf (kindOf ctx kd).decay c) ((paramsOf p kd).alpha c)
          (windowOf ctx) (timeAt ctx.maxLag k)).length) := by
    intro kd c k dist hk
    obtain ⟨h1, h2⟩ := time_window hm hlag hT hk
    have he : ∀ dr : List Params, effects ctx kd c (timeAt ctx.maxLag k) dr =
        dr.map fun p => some (retainedAt (decayOf (kindOf ctx kd).decay c) ((paramsOf p kd).alpha c)
          (windowOf ctx) (timeAt ctx.maxLag k)) := by
      intro dr
      unfold effects
      apply List.map_congr_left
      intro p _
      rw [decayOf_channel, weightAt_eq h1 h2]
    cases dist with
    | prior => exact ⟨p, hp, by
        show statN np level .mean (effects ctx kd c (timeAt ctx.maxLag k) p) = _
        rw [he, statN_some]; rfl⟩
    | posterior => exact ⟨q, hq, by
        show statN np level .mean (effects ctx kd c (timeAt ctx.maxLag k) q) = _
        rw [he, statN_some]; rfl⟩
  have ktime : ∀ k, k < nTimes ctx.maxLag → 0 ≤ timeAt ctx.maxLag k ∧
      timeAt ctx.maxLag k < windowOf ctx := by
    intro k hk
    obtain ⟨h1, h2⟩ := time_bounds hm hk
    refine ⟨h1, lt_of_lt_of_le h2 ?_⟩
    have hw : max ctx.maxLag 1 ≤ windowOf ctx := by unfold windowOf; omega
    exact_mod_cast hw
  constructor
  · intro r hr
    rw [List.mem_flatMap] at hr
    obtain ⟨kd, -, hr⟩ := hr
    obtain ⟨c, hc, k, hk, dist, rfl⟩ := mem_adstockFrame.1 hr
    obtain ⟨draws, hd, hv⟩ := key kd c k dist hk
    obtain ⟨t0, t1⟩ := ktime k hk
    have hW : 0 < windowOf ctx := (time_window hm hlag hT hk).2
    refine ⟨_, hv, ?_⟩
    have hb := mean_mem draws (hne dist draws hd) (fun p => retainedAt (decayOf (kindOf ctx kd).decay c)
      ((paramsOf p kd).alpha c) (windowOf ctx) (timeAt ctx.maxLag k)) 0 1 (by
        intro p hp
        obtain ⟨a0, a1⟩ := hα dist draws hd p hp kd c
        refine ⟨retainedAt_nonneg a0 t1.le hW, ?_⟩
        rw [← retainedAt_zero (decayOf (kindOf ctx kd).decay c) ((paramsOf p kd).alpha c) (windowOf ctx)]
        exact retainedAt_anti a0 a1 le_rfl t0 t1)
    refine ⟨hb.1, hb.2, ?_⟩
    intro hz
    have hz : timeAt ctx.maxLag k = 0 := hz
    have hb1 := mean_mem draws (hne dist draws hd) (fun p => retainedAt (decayOf (kindOf ctx kd).decay c)
      ((paramsOf p kd).alpha c) (windowOf ctx) (timeAt ctx.maxLag k)) 1 1 (by
        intro p _
        simp only [hz, retainedAt_zero]
        exact ⟨le_rfl, le_rfl⟩)
    exact le_antisymm hb1.2 hb1.1
  · intro r hr r' hr' hch hdist htime v v' e e'
    rw [List.mem_flatMap] at hr hr'
    obtain ⟨kd, -, hr⟩ := hr
    obtain ⟨kd', -, hr'⟩ := hr'
    obtain ⟨c, hc, k, hk, dist, rfl⟩ := mem_adstockFrame.1 hr
    obtain ⟨c', hc', k', hk', dist', rfl⟩ := mem_adstockFrame.1 hr'
    obtain ⟨rfl, rfl⟩ := hnames kd c kd' c' hc hc' hch
    obtain rfl : dist = dist' := hdist
    obtain ⟨draws, hd, hv⟩ := key kd c k dist hk
    obtain ⟨draws', hd', hv'⟩ := key kd c k' dist hk'
    rw [hd] at hd'
    obtain rfl := Option.some.inj hd'
    rw [hv, Option.some.injEq] at e
    rw [hv', Option.some.injEq] at e'
    rw [← e, ← e']
    apply mean_mono
    intro p hp
    obtain ⟨a0, a1⟩ := hα dist draws hd p hp kd c
    exact retainedAt_anti a0 a1 (ktime k hk).1 htime (ktime k' hk').2

/-! ### Hill curves -/

theorem hill_ok {np : Np} {ctx : Ctx} {names : Kind → ℕ → String} {s : Samples} {level : ℝ} {n : ℤ}
    {t : List HillRow × List HistRow} (h : hillCurves np ctx names s level n = .ok t) :
    ∃ p q, s.prior = some p ∧ s.posterior = some q ∧ 1 ≤ n ∧
      t = ((kinds ctx).flatMap (hillFrame np ctx names level p q), histFrame ctx names n.toNat) := by
  obtain ⟨p, q⟩ := s
  cases p with
  | none => simp [hillCurves] at h
  | some p =>
    cases q with
    | none => simp [hillCurves] at h
    | some q =>
      refine ⟨p, q, rfl, rfl, ?_⟩
      simp only [hillCurves] at h
      split_ifs at h with h1 h2
      exact ⟨by omega, (Except.ok.inj h).symm⟩

/-- **C81 (Hill curves).** The table exists exactly when both prior and posterior were sampled, the model
has a channel with a saturation curve, and at least one bin is asked for. -/
theorem hill_accepted_iff (np : Np) (ctx : Ctx) (names : Kind → ℕ → String) (s : Samples) (level : ℝ)
    (n : ℤ) : (∃ t, hillCurves np ctx names s level n = .ok t) ↔
      s.prior.isSome ∧ s.posterior.isSome ∧ (∃ kd, 0 < (kindOf ctx kd).n) ∧ 1 ≤ n := by
  obtain ⟨p, q⟩ := s
  cases p with
  | none => simp [hillCurves]
  | some p =>
    cases q with
    | none => simp [hillCurves]
    | some q =>
      simp only [hillCurves, Option.isSome_some, true_and]
      by_cases hk : kinds ctx = []
      · rw [if_pos hk]
        have := (kinds_nil ctx).1 hk
        constructor
        · rintro ⟨_, h⟩; cases h
        · rintro ⟨h, -⟩; exact absurd h this
      · rw [if_neg hk]
        have hk' : ∃ kd, 0 < (kindOf ctx kd).n := by
          by_contra h; exact hk ((kinds_nil ctx).2 h)
        by_cases hn : n < 1
        · rw [if_pos hn]
          constructor
          · rintro ⟨_, h⟩; cases h
          · rintro ⟨_, h⟩; omega
        · rw [if_neg hn]
          exact ⟨fun _ => ⟨hk', by omega⟩, fun _ => ⟨_, rfl⟩⟩

theorem mem_hillFrame {np : Np} {ctx : Ctx} {names : Kind → ℕ → String} {level : ℝ}
    {p q : List Params} {kd : Kind} {r : HillRow} :
    r ∈ hillFrame np ctx names level p q kd ↔ ∃ c < (kindOf ctx kd).n, ∃ k < hillSteps,
      ∃ dist, r = hillRow np ctx names level kd p q c k dist := by
  unfold hillFrame
  simp only [List.mem_flatMap, List.mem_map, List.mem_range]
  constructor
  · rintro ⟨c, hc, k, hk, dist, -, rfl⟩
    exact ⟨c, hc, k, hk, dist, rfl⟩
  · rintro ⟨c, hc, k, hk, dist, rfl⟩
    exact ⟨c, hc, k, hk, dist, by cases dist <;> simp, rfl⟩

theorem length_hillFrame {np : Np} {ctx : Ctx} {names : Kind → ℕ → String} {level : ℝ}
    {p q : List Params} {kd : Kind} :
    (hillFrame np ctx names level p q kd).length = (kindOf ctx kd).n * (hillSteps * 2) := by
  unfold hillFrame
  simp only [List.length_flatMap, List.length_map, List.length_cons, List.length_nil, List.map_const',
    List.length_range, List.sum_replicate, smul_eq_mul]

theorem foldl_max_spec (l : List ℝ) : ∀ x : ℝ, (x ≤ l.foldl max x ∧ ∀ y ∈ l, y ≤ l.foldl max x) ∧
    (l.foldl max x = x ∨ l.foldl max x ∈ l) := by
  induction l with
  | nil => intro x; simp
  | cons a l ih =>
    intro x
    obtain ⟨⟨h1, h2⟩, h3⟩ := ih (max x a)
    rw [List.foldl_cons]
    refine ⟨⟨le_trans (le_max_left _ _) h1, ?_⟩, ?_⟩
    · intro y hy
      rcases List.mem_cons.1 hy with rfl | hy
      · exact le_trans (le_max_right _ _) h1
      · exact h2 y hy
    · rcases h3 with h3 | h3
      · rcases max_choice x a with hc | hc
        · left; rw [h3, hc]
        · right; rw [h3, hc]; simp
      · right; exact List.mem_cons_of_mem _ h3

theorem foldl_min_spec (l : List ℝ) : ∀ x : ℝ, (l.foldl min x ≤ x ∧ ∀ y ∈ l, l.foldl min x ≤ y) ∧
    (l.foldl min x = x ∨ l.foldl min x ∈ l) := by
  induction l with
  | nil => intro x; simp
  | cons a l ih =>
    intro x
    obtain ⟨⟨h1, h2⟩, h3⟩ := ih (min x a)
    rw [List.foldl_cons]
    refine ⟨⟨le_trans h1 (min_le_left _ _), ?_⟩, ?_⟩
    · intro y hy
      rcases List.mem_cons.1 hy with rfl | hy
      · exact le_trans h1 (min_le_right _ _)
      · exact h2 y hy
    · rcases h3 with h3 | h3
      · rcases min_choice x a with hc | hc
        · left; rw [h3, hc]
        · right; rw [h3, hc]; simp
      · right; exact List.mem_cons_of_mem _ h3

theorem largest_spec {l : List ℝ} (h : l ≠ []) : largest l ∈ l ∧ ∀ y ∈ l, y ≤ largest l := by
  cases l with
  | nil => exact absurd rfl h
  | cons x l =>
    obtain ⟨⟨h1, h2⟩, h3⟩ := foldl_max_spec l x
    show l.foldl max x ∈ x :: l ∧ ∀ y ∈ x :: l, y ≤ l.foldl max x
    refine ⟨?_, ?_⟩
    · rcases h3 with h3 | h3
      · rw [h3]; simp
      · exact List.mem_cons_of_mem _ h3
    · intro y hy
      rcases List.mem_cons.1 hy with rfl | hy
      · exact h1
      · exact h2 y hy

theorem smallest_spec {l : List ℝ} (h : l ≠ []) : smallest l ∈ l ∧ ∀ y ∈ l, smallest l ≤ y := by
  cases l with
  | nil => exact absurd rfl h
  | cons x l =>
    obtain ⟨⟨h1, h2⟩, h3⟩ := foldl_min_spec l x
    show l.foldl min x ∈ x :: l ∧ ∀ y ∈ x :: l, l.foldl min x ≤ y
    refine ⟨?_, ?_⟩
    · rcases h3 with h3 | h3
      · rw [h3]; simp
      · exact List.mem_cons_of_mem _ h3
    · intro y hy
      rcases List.mem_cons.1 hy with rfl | hy
      · exact h1
      · exact h2 y hy

theorem mem_observations {ctx : Ctx} {x : T3} {c : ℕ} {v : ℝ} :
    v ∈ observations ctx x c ↔ ∃ g < ctx.nGeos, ∃ t < ctx.nMediaTimes, x g t c = v := by
  unfold observations
  simp only [List.mem_flatMap, List.mem_range, List.mem_map]

theorem observations_ne {ctx : Ctx} (hu : Usable ctx) (x : T3) (c : ℕ) : observations ctx x c ≠ [] := by
  intro h
  have : x 0 0 c ∈ observations ctx x c := mem_observations.2 ⟨0, hu.geos, 0, hu.times, rfl⟩
  rw [h] at this
  cases this

theorem factor_pos {ctx : Ctx} (hu : Usable ctx) (kd : Kind) (c : ℕ) : 0 < unitFactor ctx kd c := by
  cases kd with
  | media => exact hu.median c
  | organicMedia => exact hu.organicMedian c
  | rf => exact one_pos
  | organicRf => exact one_pos

/-- Scaled media times the factor is media per person. -/
theorem input_factor {ctx : Ctx} (hu : Usable ctx) (kd : Kind) (g t c : ℕ) :
    hillInput ctx kd g t c * unitFactor ctx kd c = perPerson ctx kd (dataOf ctx kd) g t c := by
  have h1 := (hu.pop g).ne'
  cases kd with
  | media =>
    have h2 := (hu.median c).ne'
    simp only [hillInput, unitFactor, perPerson, dataOf, scaleMedia, Transformers.mediaForward,
      Transformers.mediaScale]
    field_simp
  | organicMedia =>
    have h2 := (hu.organicMedian c).ne'
    simp only [hillInput, unitFactor, perPerson, dataOf, scaleMedia, Transformers.mediaForward,
      Transformers.mediaScale]
    field_simp
  | rf => simp [hillInput, unitFactor, perPerson, dataOf]
  | organicRf => simp [hillInput, unitFactor, perPerson, dataOf]

/-- The largest input times the factor is the largest observation per person. -/
theorem largest_observed {ctx : Ctx} (hu : Usable ctx) (kd : Kind) (c : ℕ) :
    IsGreatest (observed ctx kd c)
      (largest (observations ctx (hillInput ctx kd) c) * unitFactor ctx kd c) := by
  obtain ⟨h1, h2⟩ := largest_spec (observations_ne hu (hillInput ctx kd) c)
  constructor
  · obtain ⟨g, hg, t, ht, e⟩ := mem_observations.1 h1
    refine ⟨g, hg, t, ht, ?_⟩
    rw [← e, input_factor hu]
  · rintro v ⟨g, hg, t, ht, rfl⟩
    rw [← input_factor hu]
    exact mul_le_mul_of_nonneg_right (h2 _ (mem_observations.2 ⟨g, hg, t, ht, rfl⟩)) (factor_pos hu kd c).le

/-- The saturation of a quantity per person is the Hill function of the scaled quantity. -/
theorem saturation_eq {ctx : Ctx} (hu : Usable ctx) (kd : Kind) (p : Params) (x : T3) (g t c : ℕ)
    (v : ℝ) (hv : perPerson ctx kd x g t c = v * unitFactor ctx kd c) :
    saturation ctx kd p x g t c = hill v ((paramsOf p kd).ec c) ((paramsOf p kd).slope c) := by
  have h1 := (hu.pop g).ne'
  cases kd with
  | media =>
    have h2 := (hu.median c).ne'
    simp only [perPerson, unitFactor] at hv
    simp only [saturation, hillForward, scaleMedia, Transformers.mediaForward, Transformers.mediaScale,
      paramsOf]
    have : x g t c / (ctx.population g * ctx.media.median c) = v := by
      rw [← div_div, hv]; field_simp
    rw [this]
  | organicMedia =>
    have h2 := (hu.organicMedian c).ne'
    simp only [perPerson, unitFactor] at hv
    simp only [saturation, hillForward, scaleMedia, Transformers.mediaForward, Transformers.mediaScale,
      paramsOf]
    have : x g t c / (ctx.population g * ctx.organicMedia.median c) = v := by
      rw [← div_div, hv]; field_simp
    rw [this]
  | rf =>
    simp only [perPerson, unitFactor, mul_one] at hv
    simp only [saturation, hillForward, paramsOf, hv]
  | organicRf =>
    simp only [perPerson, unitFactor, mul_one] at hv
    simp only [saturation, hillForward, paramsOf, hv]

/-- **C81 (Hill curves).** For every channel, every one of 500 evenly spaced quantities from zero to the
largest quantity per person (media units per head, or frequency) in the data, and for prior and
posterior, the table has one row, and no other rows.  The row gives the mean and the credible bounds, over the draws, of the saturation that
the model computes for data whose quantity per person, in some geo and period, is the quantity
shown. -/
theorem hill_rows {np : Np} {ctx : Ctx} {names : Kind → ℕ → String} {s : Samples} {level : ℝ} {n : ℤ}
    {t : List HillRow × List HistRow} (h : hillCurves np ctx names s level n = .ok t) (hu : Usable ctx) :
    (∀ kd c (k : ℕ) dist draws top, c < (kindOf ctx kd).n → k < 500 → s.group dist = some draws →
      IsGreatest (observed ctx kd c) top →
      ∃ r ∈ t.1, r.channel = names kd c ∧ r.kind = kd ∧ r.dist = dist ∧
        r.units = (k : ℝ) / 499 * top ∧
        ∀ (x : T3) (g i : ℕ), perPerson ctx kd x g i c = r.units → ∀ col, r.value col =
          summaryOf np level (draws.map fun p => saturation ctx kd p x g i c) (titled col)) ∧
    t.1.length = (ctx.media.n + ctx.rf.n + ctx.organicMedia.n + ctx.organicRf.n) * 1000 := by
  obtain ⟨p, q, hp, hq, hn, rfl⟩ := hill_ok h
  constructor
  · intro kd c k dist draws top hc hk hd htop
    refine ⟨hillRow np ctx names level kd p q c k dist, ?_, rfl, rfl, rfl, ?_, ?_⟩
    · rw [List.mem_flatMap]
      exact ⟨kd, (mem_kinds ctx kd).2 (by omega), mem_hillFrame.2 ⟨c, hc, k, hk, dist, rfl⟩⟩
    · rw [htop.unique (largest_observed hu kd c)]
      simp only [hillRow, gridAt, hillSteps]
      norm_num
      ring
    · intro x g i hx col
      have hdr : groupOf dist p q = draws := by
        cases dist
        · simp only [Samples.group, hp, Option.some.injEq] at hd; exact hd
        · simp only [Samples.group, hq, Option.some.injEq] at hd; exact hd
      have e1 : (hillRow np ctx names level kd p q c k dist).value col = stat np level col.stat
          (draws.map fun p => hill (gridAt ctx kd c k) ((paramsOf p kd).ec c) ((paramsOf p kd).slope c)) := by
        rw [← hdr]; rfl
      rw [e1, List.map_congr_left fun p _ => (saturation_eq hu kd p x g i c _ hx).symm]
      cases col <;> rfl
  · simp only []
    rw [List.length_flatMap, sum_kinds ctx _ (fun kd h0 => by rw [length_hillFrame, h0, Nat.zero_mul])]
    simp only [length_hillFrame, kindOf, hillSteps]
    ring

/-- **C81 (shape of the Hill curves).** With positive half saturation and slope in every draw and
non-negative data, the mean column is zero at zero, below one, and never decreases along the quantity
shown. -/
theorem hill_curve_shape {np : Np} {ctx : Ctx} {names : Kind → ℕ → String} {s : Samples} {level : ℝ}
    {n : ℤ} {t : List HillRow × List HistRow} (h : hillCurves np ctx names s level n = .ok t)
    (hu : Usable ctx) (hnames : UniqueNames ctx names)
    (hne : ∀ dist draws, s.group dist = some draws → draws ≠ [])
    (hpos : ∀ dist draws, s.group dist = some draws → ∀ p ∈ draws, ∀ kd c,
      0 < (paramsOf p kd).ec c ∧ 0 < (paramsOf p kd).slope c)
    (hx : ∀ kd g i c, 0 ≤ dataOf ctx kd g i c) :
    (∀ r ∈ t.1, 0 ≤ r.value .mean ∧ r.value .mean ≤ 1 ∧ (r.units = 0 → r.value .mean = 0)) ∧
    ∀ r ∈ t.1, ∀ r' ∈ t.1, r.channel = r'.channel → r.dist = r'.dist → r.units ≤ r'.units →
      r.value .mean ≤ r'.value .mean := by
  obtain ⟨p, q, hp, hq, hn, rfl⟩ := hill_ok h
  have key : ∀ kd c dist, ∃ draws, s.group dist = some draws ∧
      ∀ k, (hillRow np ctx names level kd p q c k dist).value .mean =
        (draws.map fun p => hill (gridAt ctx kd c k) ((paramsOf p kd).ec c) ((paramsOf p kd).slope c)).sum /
        (draws.map fun p => hill (gridAt ctx kd c k) ((paramsOf p kd).ec c)
          ((paramsOf p kd).slope c)).length := by
    intro kd c dist
    cases dist with
    | prior => exact ⟨p, hp, fun k => rfl⟩
    | posterior => exact ⟨q, hq, fun k => rfl⟩
  have hgrid : ∀ kd c k, 0 ≤ gridAt ctx kd c k := by
    intro kd c k
    obtain ⟨h1, -⟩ := largest_spec (observations_ne hu (hillInput ctx kd) c)
    obtain ⟨g, hg, t, ht, e⟩ := mem_observations.1 h1
    have h2 : 0 ≤ perPerson ctx kd (dataOf ctx kd) g t c := by
      have h3 := hx kd g t c
      have h4 := hu.pop g
      cases kd <;> simp only [perPerson] <;> first | exact h3 | exact div_nonneg h3 h4.le
    rw [← input_factor hu, e] at h2
    have h5 := nonneg_of_mul_nonneg_left h2 (factor_pos hu kd c)
    unfold gridAt
    positivity
  constructor
  · intro r hr
    rw [List.mem_flatMap] at hr
    obtain ⟨kd, -, hr⟩ := hr
    obtain ⟨c, hc, k, hk, dist, rfl⟩ := mem_hillFrame.1 hr
    obtain ⟨draws, hd, hv⟩ := key kd c dist
    rw [hv]
    obtain ⟨b1, b2⟩ := mean_mem draws (hne dist draws hd) (fun p => hill (gridAt ctx kd c k)
      ((paramsOf p kd).ec c) ((paramsOf p kd).slope c)) 0 1 (by
        intro r hr
        obtain ⟨e0, s0⟩ := hpos dist draws hd r hr kd c
        have h0 := (Adstock.Props.hill_shape _ _ e0 s0).2.1 _ (hgrid kd c k)
        exact ⟨h0.1, h0.2.le⟩)
    refine ⟨b1, b2, ?_⟩
    intro hz
    have hz : gridAt ctx kd c k * unitFactor ctx kd c = 0 := hz
    have hg : gridAt ctx kd c k = 0 := (mul_eq_zero.1 hz).resolve_right (factor_pos hu kd c).ne'
    obtain ⟨b3, b4⟩ := mean_mem draws (hne dist draws hd) (fun p => hill (gridAt ctx kd c k)
      ((paramsOf p kd).ec c) ((paramsOf p kd).slope c)) 0 0 (by
        intro r hr
        obtain ⟨e0, s0⟩ := hpos dist draws hd r hr kd c
        have h0 := (Adstock.Props.hill_shape _ _ e0 s0).1
        simp only [hg, h0]
        exact ⟨le_rfl, le_rfl⟩)
    exact le_antisymm b4 b3
  · intro r hr r' hr' hch hdist hle
    rw [List.mem_flatMap] at hr hr'
    obtain ⟨kd, -, hr⟩ := hr
    obtain ⟨kd', -, hr'⟩ := hr'
    obtain ⟨c, hc, k, hk, dist, rfl⟩ := mem_hillFrame.1 hr
    obtain ⟨c', hc', k', hk', dist', rfl⟩ := mem_hillFrame.1 hr'
    obtain ⟨rfl, rfl⟩ := hnames kd c kd' c' hc hc' hch
    obtain rfl : dist = dist' := hdist
    obtain ⟨draws, hd, hv⟩ := key kd c dist
    rw [hv, hv]
    apply mean_mono
    intro r hr
    obtain ⟨e0, s0⟩ := hpos dist draws hd r hr kd c
    have hle : gridAt ctx kd c k * unitFactor ctx kd c ≤ gridAt ctx kd c k' * unitFactor ctx kd c := hle
    have hle := le_of_mul_le_mul_right hle (factor_pos hu kd c)
    rcases hle.eq_or_lt with e | hlt
    · rw [e]
    · exact ((Adstock.Props.hill_shape _ _ e0 s0).2.2.1 _ _ (hgrid kd c k) hlt).le

/-! ### The histogram -/

theorem histData_eq {ctx : Ctx} (hu : Usable ctx) (kd : Kind) (c : ℕ) :
    histData ctx kd c = observedList ctx kd c := by
  unfold histData observations observedList
  simp only [input_factor hu]

theorem histData_ne {ctx : Ctx} (hu : Usable ctx) (kd : Kind) (c : ℕ) : histData ctx kd c ≠ [] :=
  observations_ne hu _ _

theorem histRange_lt {data : List ℝ} (h : data ≠ []) : (histRange data).1 < (histRange data).2 := by
  have h1 := (smallest_spec h).2 _ (largest_spec h).1
  unfold histRange
  split_ifs with e
  · simp only []; linarith
  · exact lt_of_le_of_ne h1 e

theorem histRange_mem {data : List ℝ} (h : data ≠ []) {x : ℝ} (hx : x ∈ data) :
    (histRange data).1 ≤ x ∧ x ≤ (histRange data).2 := by
  have h1 := (smallest_spec h).2 x hx
  have h2 := (largest_spec h).2 x hx
  unfold histRange
  split_ifs with e
  · simp only []; constructor <;> linarith
  · exact ⟨h1, h2⟩

theorem edge_zero (data : List ℝ) (n : ℕ) : edge data n 0 = (histRange data).1 := by simp [edge]

theorem edge_last (data : List ℝ) {n : ℕ} (hn : 0 < n) : edge data n n = (histRange data).2 := by
  have : (n : ℝ) ≠ 0 := by exact_mod_cast hn.ne'
  unfold edge
  field_simp
  ring

theorem edge_width (data : List ℝ) (n i : ℕ) :
    edge data n (i + 1) - edge data n i = ((histRange data).2 - (histRange data).1) / n := by
  unfold edge; push_cast; ring

theorem edge_step {data : List ℝ} (h : data ≠ []) {n : ℕ} (hn : 0 < n) (i : ℕ) :
    edge data n i < edge data n (i + 1) := by
  have h1 := edge_width data n i
  have h2 : 0 < ((histRange data).2 - (histRange data).1) / n :=
    div_pos (by linarith [histRange_lt h]) (by exact_mod_cast hn)
  linarith

open Classical in
/-- A value in the range is in exactly one bin. -/
theorem one_bin {data : List ℝ} (h : data ≠ []) {n : ℕ} (hn : 0 < n) {x : ℝ}
    (h0 : edge data n 0 ≤ x) (h1 : x ≤ edge data n n) :
    ((List.range n).map fun i => if edge data n i ≤ x ∧
      (x < edge data n (i + 1) ∨ i + 1 = n ∧ x ≤ edge data n (i + 1)) then 1 else 0).sum = 1 := by
  have half : ∀ m, m < n → ((List.range m).map fun i => if edge data n i ≤ x ∧
      (x < edge data n (i + 1) ∨ i + 1 = n ∧ x ≤ edge data n (i + 1)) then 1 else 0).sum =
      if x < edge data n m then 1 else 0 := by
    intro m
    induction m with
    | zero => intro _; rw [if_neg (by linarith)]; simp
    | succ m ih =>
      intro hm
      rw [List.range_succ, List.map_append, List.sum_append, ih (by omega)]
      simp only [List.map_cons, List.map_nil, List.sum_cons, List.sum_nil, add_zero]
      have hst := edge_step h hn m
      have hne : ¬ (m + 1 = n ∧ x ≤ edge data n (m + 1)) := by rintro ⟨e, -⟩; omega
      by_cases c1 : x < edge data n m
      · rw [if_pos c1, if_pos (show x < edge data n (m + 1) by linarith),
          if_neg (by rintro ⟨a, -⟩; linarith)]
      · rw [if_neg c1]
        by_cases c2 : x < edge data n (m + 1)
        · rw [if_pos c2, if_pos ⟨by linarith, Or.inl c2⟩]
        · rw [if_neg c2, if_neg (by rintro ⟨-, a | a⟩ <;> [exact c2 a; exact hne a])]
  obtain ⟨m, rfl⟩ : ∃ m, n = m + 1 := ⟨n - 1, by omega⟩
  rw [List.range_succ, List.map_append, List.sum_append, half m (by omega)]
  simp only [List.map_cons, List.map_nil, List.sum_cons, List.sum_nil, add_zero]
  by_cases c1 : x < edge data (m + 1) m
  · rw [if_pos c1, if_neg (by rintro ⟨a, -⟩; linarith)]
  · rw [if_neg c1, if_pos ⟨by linarith, Or.inr ⟨trivial, h1⟩⟩]

open Classical in
theorem sum_filter_length (P : ℕ → ℝ → Prop) (n : ℕ) (l : List ℝ)
    (hl : ∀ x ∈ l, ((List.range n).map fun i => if P i x then 1 else 0).sum = 1) :
    ((List.range n).map fun i => (l.filter fun x => P i x).length).sum = l.length := by
  induction l with
  | nil => simp
  | cons x l ih =>
    have h1 := hl x (by simp)
    have h2 := ih fun y hy => hl y (by simp [hy])
    have : ((List.range n).map fun i => ((x :: l).filter fun x => P i x).length) =
        (List.range n).map fun i => (if P i x then 1 else 0) + (l.filter fun x => P i x).length := by
      apply List.map_congr_left
      intro i _
      rw [List.filter_cons]
      by_cases hp : P i x
      · simp [hp]; omega
      · simp [hp]
    rw [this, List.sum_map_add, h1, h2, List.length_cons]
    omega

theorem binCount_sum {data : List ℝ} (h : data ≠ []) {n : ℕ} (hn : 0 < n) :
    ((List.range n).map (binCount data n)).sum = data.length := by
  classical
  have := sum_filter_length (fun i x => edge data n i ≤ x ∧
    (x < edge data n (i + 1) ∨ i + 1 = n ∧ x ≤ edge data n (i + 1))) n data (by
      intro x hx
      obtain ⟨h1, h2⟩ := histRange_mem h hx
      have := one_bin h hn (x := x) (by rw [edge_zero]; exact h1) (by rw [edge_last _ hn]; exact h2)
      convert this)
  rw [← this]
  congr 1
  apply List.map_congr_left
  intro i _
  unfold binCount
  congr 1
  apply List.filter_congr
  intro x _
  simp

theorem share_eq {data : List ℝ} (h : data ≠ []) {n : ℕ} (hn : 0 < n) (i : ℕ) :
    density data n i * (edge data n (i + 1) - edge data n i) =
      shareIn data (edge data n i) (edge data n (i + 1)) (i + 1 = n) := by
  classical
  have h1 := edge_step h hn i
  have h2 : edge data n (i + 1) - edge data n i ≠ 0 := by linarith
  have hb : (binCount data n i : ℝ) = ((data.filter fun x => edge data n i ≤ x ∧
      (x < edge data n (i + 1) ∨ i + 1 = n ∧ x = edge data n (i + 1))).length : ℝ) := by
    unfold binCount
    congr 2
    apply List.filter_congr
    intro x hx
    simp only [decide_eq_decide]
    constructor
    · rintro ⟨a, b | ⟨b, c⟩⟩
      · exact ⟨a, Or.inl b⟩
      · rcases c.lt_or_eq with c | c
        · exact ⟨a, Or.inl c⟩
        · exact ⟨a, Or.inr ⟨b, c⟩⟩
    · rintro ⟨a, b | ⟨b, c⟩⟩
      · exact ⟨a, Or.inl b⟩
      · exact ⟨a, Or.inr ⟨b, c.le⟩⟩
  unfold density shareIn
  rw [hb]
  field_simp
  congr!

theorem density_nonneg {data : List ℝ} (h : data ≠ []) {n : ℕ} (hn : 0 < n) (i : ℕ) :
    0 ≤ density data n i := by
  have h1 := edge_step h hn i
  unfold density
  have : 0 < edge data n (i + 1) - edge data n i := by linarith
  positivity

theorem share_total {data : List ℝ} (h : data ≠ []) {n : ℕ} (hn : 0 < n) :
    ((List.range n).map fun i => density data n i * (edge data n (i + 1) - edge data n i)).sum = 1 := by
  have hl : (data.length : ℝ) ≠ 0 := by exact_mod_cast (List.length_pos_of_ne_nil h).ne'
  have e : ((List.range n).map fun i => density data n i * (edge data n (i + 1) - edge data n i)) =
      (List.range n).map fun i => (binCount data n i : ℝ) * (data.length : ℝ)⁻¹ := by
    apply List.map_congr_left
    intro i _
    have h1 := edge_step h hn i
    have h2 : edge data n (i + 1) - edge data n i ≠ 0 := by linarith
    unfold density
    field_simp
  rw [e, List.sum_map_mul_right]
  have hs := binCount_sum h hn
  have : ((List.range n).map fun i => (binCount data n i : ℝ)).sum = (data.length : ℝ) := by
    rw [← hs, Nat.cast_list_sum, List.map_map]
    rfl
  rw [this]
  field_simp

theorem maxCounts_spec {data : List ℝ} (h : data ≠ []) {n : ℕ} (hn : 0 < n) :
    0 < maxCounts data n ∧ (∃ i < n, density data n i = maxCounts data n) ∧
      ∀ i < n, density data n i ≤ maxCounts data n := by
  have hne : densities data n ≠ [] := by
    unfold densities
    simp [hn.ne']
  obtain ⟨h1, h2⟩ := largest_spec hne
  have hle : ∀ i < n, density data n i ≤ largest (densities data n) := fun i hi =>
    h2 _ (List.mem_map.2 ⟨i, List.mem_range.2 hi, rfl⟩)
  have hpos : 0 < largest (densities data n) := by
    by_contra hc
    have hz : ∀ i < n, density data n i = 0 := fun i hi =>
      le_antisymm (le_trans (hle i hi) (not_lt.1 hc)) (density_nonneg h hn i)
    have ht := share_total h hn
    have : ((List.range n).map fun i => density data n i * (edge data n (i + 1) - edge data n i)).sum = 0 := by
      apply List.sum_eq_zero
      intro x hx
      obtain ⟨i, hi, rfl⟩ := List.mem_map.1 hx
      rw [hz i (List.mem_range.1 hi), zero_mul]
    rw [this] at ht
    exact zero_ne_one ht
  unfold maxCounts
  rw [if_pos hpos]
  refine ⟨hpos, ?_, hle⟩
  obtain ⟨i, hi, e⟩ := List.mem_map.1 h1
  exact ⟨i, List.mem_range.1 hi, e⟩

/-- **C81 (histogram).** For every channel the histogram has the requested number of consecutive bins of
equal width.  They run from the smallest to the largest quantity per person in the data (half a unit
further on both sides if these are equal).  The count column times the width of the bin is the share of
the observations in the bin, the shares add up to one, and the scaled column is the count column
divided by its largest value. -/
theorem hist_rows {np : Np} {ctx : Ctx} {names : Kind → ℕ → String} {s : Samples} {level : ℝ} {n : ℤ}
    {t : List HillRow × List HistRow} (h : hillCurves np ctx names s level n = .ok t) (hu : Usable ctx)
    (kd : Kind) (c : ℕ) (hc : c < (kindOf ctx kd).n) (lo hi : ℝ)
    (hlo : IsLeast (observed ctx kd c) lo) (hhi : IsGreatest (observed ctx kd c) hi) :
    ∃ bins : List HistRow, (bins.length : ℤ) = n ∧
      (∀ b ∈ bins, b ∈ t.2 ∧ b.channel = names kd c ∧ b.kind = kd ∧ b.start < b.stop ∧
        b.stop - b.start = (if lo = hi then 1 else hi - lo) / n) ∧
      (∀ i b b', bins[i]? = some b → bins[i + 1]? = some b' → b'.start = b.stop) ∧
      (∀ b, bins[0]? = some b → b.start = if lo = hi then lo - 1 / 2 else lo) ∧
      (∀ i b, bins[i]? = some b → b.count * (b.stop - b.start) =
        shareIn (observedList ctx kd c) b.start b.stop ((i + 1 : ℕ) = n)) ∧
      (bins.map fun b => b.count * (b.stop - b.start)).sum = 1 ∧
      ∃ top : ℝ, 0 < top ∧ (∃ b ∈ bins, b.count = top) ∧
        ∀ b ∈ bins, 0 ≤ b.count ∧ b.count ≤ top ∧ b.scaled = b.count / top := by
  obtain ⟨p, q, hp, hq, hn, rfl⟩ := hill_ok h
  have hn' : 0 < n.toNat := by omega
  have hne := histData_ne hu kd c
  have hob : ∀ v, v ∈ observedList ctx kd c ↔ v ∈ observed ctx kd c := by
    intro v
    unfold observedList observed
    simp only [List.mem_flatMap, List.mem_range, List.mem_map, Set.mem_setOf_eq]
    constructor
    · rintro ⟨g, hg, t, ht, e⟩; exact ⟨g, hg, t, ht, e.symm⟩
    · rintro ⟨g, hg, t, ht, e⟩; exact ⟨g, hg, t, ht, e.symm⟩
  have hsm : smallest (histData ctx kd c) = lo := by
    obtain ⟨h1, h2⟩ := smallest_spec hne
    rw [histData_eq hu] at h1 h2
    rw [histData_eq hu]
    exact le_antisymm (h2 _ ((hob _).2 hlo.1)) (hlo.2 ((hob _).1 h1))
  have hlg : largest (histData ctx kd c) = hi := by
    obtain ⟨h1, h2⟩ := largest_spec hne
    rw [histData_eq hu] at h1 h2
    rw [histData_eq hu]
    exact le_antisymm (hhi.2 ((hob _).1 h1)) (h2 _ ((hob _).2 hhi.1))
  have hget : ∀ i b, (histChannel (names kd c) kd (histData ctx kd c) n.toNat)[i]? = some b →
      i < n.toNat ∧ b = ⟨names kd c, kd, density (histData ctx kd c) n.toNat i /
        maxCounts (histData ctx kd c) n.toNat, density (histData ctx kd c) n.toNat i,
        edge (histData ctx kd c) n.toNat i, edge (histData ctx kd c) n.toNat (i + 1)⟩ := by
    intro i b hb
    unfold histChannel at hb
    rw [List.getElem?_map] at hb
    by_cases hi : i < n.toNat
    · rw [List.getElem?_range hi] at hb
      exact ⟨hi, (Option.some.inj hb).symm⟩
    · rw [List.getElem?_eq_none (by simpa using hi)] at hb
      cases hb
  have hmem : ∀ b ∈ histChannel (names kd c) kd (histData ctx kd c) n.toNat, ∃ i < n.toNat,
      b = ⟨names kd c, kd, density (histData ctx kd c) n.toNat i /
        maxCounts (histData ctx kd c) n.toNat, density (histData ctx kd c) n.toNat i,
        edge (histData ctx kd c) n.toNat i, edge (histData ctx kd c) n.toNat (i + 1)⟩ := by
    intro b hb
    obtain ⟨i, hi⟩ := List.mem_iff_getElem?.1 hb
    exact ⟨i, hget i b hi⟩
  obtain ⟨m1, ⟨im, him, m2⟩, m3⟩ := maxCounts_spec hne hn'
  refine ⟨histChannel (names kd c) kd (histData ctx kd c) n.toNat, ?_, ?_, ?_, ?_, ?_, ?_, ?_⟩
  · simp only [histChannel, List.length_map, List.length_range]; omega
  · intro b hb
    refine ⟨?_, ?_⟩
    · unfold histFrame
      rw [List.mem_flatMap]
      refine ⟨kd, by cases kd <;> simp, ?_⟩
      rw [List.mem_flatMap]
      exact ⟨c, List.mem_range.2 hc, hb⟩
    · obtain ⟨i, hi', rfl⟩ := hmem b hb
      refine ⟨rfl, rfl, edge_step hne hn' i, ?_⟩
      simp only [edge_width]
      have e2 : ((n.toNat : ℕ) : ℝ) = (n : ℝ) := by
        have : ((n.toNat : ℕ) : ℤ) = n := by omega
        exact_mod_cast congrArg (fun z : ℤ => (z : ℝ)) this
      rw [e2]
      congr 1
      unfold histRange
      rw [hsm, hlg]
      split_ifs with e
      · rw [e]; ring
      · rfl
  · intro i b b' hb hb'
    obtain ⟨-, rfl⟩ := hget i b hb
    obtain ⟨-, rfl⟩ := hget _ b' hb'
    rfl
  · intro b hb
    obtain ⟨-, rfl⟩ := hget 0 b hb
    simp only [edge_zero]
    unfold histRange
    rw [hsm, hlg]
    split_ifs <;> rfl
  · intro i b hb
    obtain ⟨-, rfl⟩ := hget i b hb
    simp only []
    rw [share_eq hne hn', histData_eq hu]
    have : (i + 1 = n.toNat) = (((i + 1 : ℕ) : ℤ) = n) := by
      apply propext; constructor <;> intro h <;> omega
    rw [this]
  · have := share_total hne hn'
    unfold histChannel
    rw [List.map_map]
    exact this
  · refine ⟨maxCounts (histData ctx kd c) n.toNat, m1, ?_, ?_⟩
    · refine ⟨_, List.mem_map.2 ⟨im, List.mem_range.2 him, rfl⟩, m2⟩
    · intro b hb
      obtain ⟨i, hi', rfl⟩ := hmem b hb
      exact ⟨density_nonneg hne hn' i, m3 i hi', rfl⟩

/-! ### The data frame of the visualizer -/

theorem mem_excluded {ctx : Ctx} {names : Kind → ℕ → String} (hnames : UniqueNames ctx names) (kd : Kind)
    (c : ℕ) (hc : c < (kindOf ctx kd).n) :
    names kd c ∈ excluded ctx names ↔ Unsaturated (kindOf ctx kd) c := by
  have hs : ∀ k : MediaKind, ∀ c, satNone k c = true ↔ Unsaturated k c := by
    intro k c
    unfold satNone Unsaturated
    cases k.sat <;> simp
  unfold excluded
  simp only [List.mem_flatMap, List.mem_map, List.mem_filter, List.mem_range, hs]
  constructor
  · rintro ⟨kd', -, c', ⟨hc', hu⟩, e⟩
    obtain ⟨rfl, rfl⟩ := hnames _ _ _ _ hc' hc e
    exact hu
  · intro hu
    exact ⟨kd, by cases kd <;> simp, c, ⟨hc, hu⟩, rfl⟩

/-- **C81 (visualizer).** The Hill curve data frame of the visualizer keeps exactly the rows of those
channels whose saturation is not switched off. -/
theorem dataframe_rows {np : Np} {ctx : Ctx} {names : Kind → ℕ → String} {s : Samples} {level : ℝ}
    (hnames : UniqueNames ctx names) {t d : List HillRow × List HistRow}
    (h : hillCurves np ctx names s level 25 = .ok t)
    (hd : hillCurvesDataframe np ctx names s level = .ok d) :
    (∀ r, r ∈ d.1 ↔ r ∈ t.1 ∧ ∃ kd c, c < (kindOf ctx kd).n ∧ r.channel = names kd c ∧
      ¬ Unsaturated (kindOf ctx kd) c) ∧
    (∀ r, r ∈ d.2 ↔ r ∈ t.2 ∧ ∃ kd c, c < (kindOf ctx kd).n ∧ r.channel = names kd c ∧
      ¬ Unsaturated (kindOf ctx kd) c) := by
  unfold hillCurvesDataframe at hd
  rw [h] at hd
  obtain rfl := (Except.ok.inj hd).symm
  obtain ⟨p, q, hp, hq, hn, rfl⟩ := hill_ok h
  constructor
  · intro r
    simp only [List.mem_filter, decide_eq_true_eq]
    constructor
    · rintro ⟨hr, hx⟩
      refine ⟨hr, ?_⟩
      obtain ⟨kd, -, hr⟩ := List.mem_flatMap.1 hr
      obtain ⟨c, hc, k, hk, dist, rfl⟩ := mem_hillFrame.1 hr
      exact ⟨kd, c, hc, rfl, fun hu => hx ((mem_excluded hnames kd c hc).2 hu)⟩
    · rintro ⟨hr, kd, c, hc, e, hu⟩
      exact ⟨hr, by rw [e]; exact fun hx => hu ((mem_excluded hnames kd c hc).1 hx)⟩
  · intro r
    simp only [List.mem_filter, decide_eq_true_eq]
    constructor
    · rintro ⟨hr, hx⟩
      refine ⟨hr, ?_⟩
      unfold histFrame at hr
      obtain ⟨kd, -, hr⟩ := List.mem_flatMap.1 hr
      obtain ⟨c, hc, hr⟩ := List.mem_flatMap.1 hr
      obtain ⟨i, -, rfl⟩ := List.mem_map.1 hr
      have hc := List.mem_range.1 hc
      exact ⟨kd, c, hc, rfl, fun hu => hx ((mem_excluded hnames kd c hc).2 hu)⟩
    · rintro ⟨hr, kd, c, hc, e, hu⟩
      exact ⟨hr, by rw [e]; exact fun hx => hu ((mem_excluded hnames kd c hc).1 hx)⟩

/-! ### Findings -/

/-- **C81 (finding).** The table never shows the largest lag that the model uses.  The model carries a
positive share of the effect to it. -/
theorem last_lag_missing {np : Np} {ctx : Ctx} {names : Kind → ℕ → String} {s : Samples} {level : ℝ}
    {rows : List DecayRow} (h : adstockDecay np ctx names s level = .ok rows) (h1 : 1 ≤ ctx.maxLag) :
    (∀ r ∈ rows, r.time < ctx.maxLag) ∧
    ∀ α : ℝ, 0 < α → 0 < weight .geometric α (ctx.maxLag + 1) ctx.maxLag := by
  obtain ⟨p, q, hp, hq, hm, rfl⟩ := decay_ok h
  constructor
  · intro r hr
    obtain ⟨kd, -, hr⟩ := List.mem_flatMap.1 hr
    obtain ⟨c, hc, k, hk, dist, rfl⟩ := mem_adstockFrame.1 hr
    have := (time_bounds hm hk).2
    rw [show max ctx.maxLag 1 = ctx.maxLag by omega] at this
    exact this
  · intro α hα
    exact div_pos (pow_pos hα _) (retained_sum_pos hα.le (by omega))

/-- Names for the demo: a letter per type and the number of the channel. -/
def demoNames : Kind → ℕ → String
  | .media, _ => "m"
  | .rf, _ => "r"
  | .organicMedia, _ => "o"
  | .organicRf, _ => "q"

theorem demo_unique (sat : Sat) : UniqueNames (Mmm.Props.demo sat) demoNames := by
  intro kd c kd' c' h h' e
  cases kd <;> cases kd' <;> simp [demoNames] at e <;> simp [kindOf, Mmm.Props.demo] at h h' <;> simp [h, h']

theorem demo_usable (sat : Sat) : Usable (Mmm.Props.demo sat) := by
  refine ⟨fun g => ?_, fun c => ?_, fun c => ?_, ?_, ?_⟩ <;> simp [Mmm.Props.demo]
  positivity

/-- **C81 (finding).** With a maximum lag of zero the model carries nothing over, yet the table shows an
effect after a fifth of a period (and up to four fifths). -/
theorem no_carryover_shown : ∃ rows, adstockDecay Summary.Props.demoNp (Mmm.Props.demo .hill) demoNames
    Summary.Props.demoSamples (9 / 10) = .ok rows ∧ (Mmm.Props.demo .hill).maxLag = 0 ∧
    ∃ r ∈ rows, r.time = 1 / 5 ∧ ∃ v, r.value .mean = some v ∧ 0 < v := by
  obtain ⟨rows, h⟩ := (decay_accepted_iff Summary.Props.demoNp (Mmm.Props.demo .hill) demoNames
    Summary.Props.demoSamples (9 / 10)).2 ⟨rfl, rfl, ⟨.media, by simp [kindOf, Mmm.Props.demo]⟩,
      by simp [Mmm.Props.demo]⟩
  refine ⟨rows, h, rfl, ?_⟩
  obtain ⟨steps, h0, h5, h200, hrow, -⟩ := decay_rows h (by simp [Mmm.Props.demo]) (by simp [Mmm.Props.demo])
  obtain rfl := h200 (by simp [Mmm.Props.demo])
  obtain ⟨r, hr, -, ht, -, -, hv⟩ := hrow .media 0 1 .prior _ (by simp [kindOf, Mmm.Props.demo])
    (by simp [Mmm.Props.demo]) rfl
  refine ⟨r, hr, by rw [ht]; norm_num, _, hv .mean, ?_⟩
  simp only [titled, summaryOf, List.map_cons, List.map_nil, List.sum_cons, List.sum_nil, add_zero,
    List.length_cons, List.length_nil, kindOf, Mmm.Props.demo, decayOf, retainedAt, paramsOf,
    Mmm.Props.demoParams]
  have : (0 : ℝ) < (1 / 2 : ℝ) ^ r.time := Real.rpow_pos_of_pos (by norm_num) _
  simpa using this

example : ∃ rows, adstockDecay Summary.Props.demoNp (Mmm.Props.demo .hill) demoNames
    Summary.Props.demoSamples (9 / 10) = .ok rows ∧ UniqueNames (Mmm.Props.demo .hill) demoNames := by
  obtain ⟨rows, h, -⟩ := no_carryover_shown
  exact ⟨rows, h, demo_unique .hill⟩

/-- **C81 (finding).** With binomial decay and a maximum lag beyond the number of periods, some rows of
the table have no value. -/
theorem binomial_undefined : ∃ ctx rows, adstockDecay Summary.Props.demoNp ctx demoNames
    Summary.Props.demoSamples (9 / 10) = .ok rows ∧ Usable ctx ∧ ∃ r ∈ rows, r.value .mean = none := by
  let ctx : Ctx := { Mmm.Props.demo .hill with
    maxLag := 4, media := ⟨1, .inl .binomial, .inl .hill, fun _ => 1⟩ }
  obtain ⟨rows, h⟩ := (decay_accepted_iff Summary.Props.demoNp ctx demoNames
    Summary.Props.demoSamples (9 / 10)).2 ⟨rfl, rfl, ⟨.media, by simp [kindOf, ctx]⟩, by simp [ctx]⟩
  refine ⟨ctx, rows, h, ⟨(demo_usable .hill).pop, fun c => by simp [ctx], (demo_usable .hill).organicMedian,
    (demo_usable .hill).geos, (demo_usable .hill).times⟩, ?_⟩
  obtain ⟨p, q, hp, hq, hm, rfl⟩ := decay_ok h
  refine ⟨decayRow Summary.Props.demoNp ctx demoNames (9 / 10) .media p q 0 15 .prior, ?_, ?_⟩
  · rw [List.mem_flatMap]
    exact ⟨.media, (mem_kinds ctx .media).2 (by simp [kindOf, ctx]),
      mem_adstockFrame.2 ⟨0, by simp [kindOf, ctx], 15, by decide, .prior, rfl⟩⟩
  · obtain rfl : [Mmm.Props.demoParams 1] = p := Option.some.inj hp
    have hst : timeAt ctx.maxLag 15 = 3 := by
      have : stepsPerPeriod ctx.maxLag = 5 := by decide
      unfold timeAt; rw [this]; norm_num
    have hw : windowOf ctx = 2 := by
      simp [windowOf, ctx, Mmm.Props.demo]
    show statN _ _ _ (effects ctx .media 0 (timeAt ctx.maxLag 15) [Mmm.Props.demoParams 1]) = none
    rw [hst]
    unfold statN effects
    rw [hw, if_pos]
    simp only [List.map_cons, List.map_nil, kindOf, channelWeightAt, weightAt, ctx]
    norm_num

/-- **C81 (finding).** `Analyzer.hill_curves` gives bounded curves also for channels whose saturation is
switched off, for which the model's effect is linear. -/
theorem curve_for_linear : ∃ t, hillCurves Summary.Props.demoNp (Mmm.Props.demo .none) demoNames
    Summary.Props.demoSamples (9 / 10) 25 = .ok t ∧ Unsaturated (Mmm.Props.demo .none).media 0 ∧
    ∃ r ∈ t.1, r.channel = "m" ∧ r.value .mean ≤ 1 ∧ 0 < r.units := by
  obtain ⟨t, h⟩ := (hill_accepted_iff Summary.Props.demoNp (Mmm.Props.demo .none) demoNames
    Summary.Props.demoSamples (9 / 10) 25).2 ⟨rfl, rfl, ⟨.media, by simp [kindOf, Mmm.Props.demo]⟩, by norm_num⟩
  refine ⟨t, h, rfl, ?_⟩
  have hu := demo_usable .none
  obtain ⟨r, hr, h1, -, -, h4, -⟩ := (hill_rows h hu).1 .media 0 499 .prior _ _
    (by simp [kindOf, Mmm.Props.demo]) (by norm_num) rfl (largest_observed hu .media 0)
  refine ⟨r, hr, h1, ?_, ?_⟩
  · refine ((hill_curve_shape h hu (demo_unique _) ?_ ?_ ?_).1 r hr).2.1
    · intro dist draws hd
      cases dist <;> simp only [Samples.group, Summary.Props.demoSamples, Option.some.injEq] at hd <;>
        simp [← hd]
    · intro dist draws hd p hp kd c
      have : p = Mmm.Props.demoParams 1 ∨ p = Mmm.Props.demoParams 2 := by
        cases dist <;> simp only [Samples.group, Summary.Props.demoSamples, Option.some.injEq] at hd <;>
          subst hd <;> simp at hp <;> tauto
      rcases this with rfl | rfl <;> cases kd <;> simp [paramsOf, Mmm.Props.demoParams]
    · intro kd g i c
      cases kd <;> simp only [dataOf, Mmm.Props.demo] <;> positivity
  · rw [h4]
    have hg := (largest_observed hu .media 0).2 ⟨0, hu.geos, 0, hu.times, rfl⟩
    have : (0 : ℝ) < perPerson (Mmm.Props.demo .none) .media (dataOf (Mmm.Props.demo .none) .media) 0 0 0 := by
      simp [perPerson, dataOf, Mmm.Props.demo]
    have := lt_of_lt_of_le this hg
    positivity

/-- **C81 (finding).** Without the prior the plot of the Hill curves loses the histogram. -/
theorem plot_without_prior_drops_histogram (t : List HillRow × List HistRow) :
    (plotRows t true).2 = t.2 ∧ (plotRows t false).2 = [] ∧
    ∀ r, r ∈ (plotRows t false).1 ↔ r ∈ t.1 ∧ r.dist = .posterior := by
  refine ⟨rfl, rfl, fun r => ?_⟩
  simp [plotRows]

/-! ### The hypotheses can be met -/

example : (∃ rows, adstockDecay Summary.Props.demoNp (Mmm.Props.demo .hill) demoNames
      Summary.Props.demoSamples (9 / 10) = .ok rows) ∧
    (∃ t, hillCurves Summary.Props.demoNp (Mmm.Props.demo .hill) demoNames
      Summary.Props.demoSamples (9 / 10) 25 = .ok t) ∧ Usable (Mmm.Props.demo .hill) ∧
    UniqueNames (Mmm.Props.demo .hill) demoNames ∧
    (Mmm.Props.demo .hill).maxLag ≤ (Mmm.Props.demo .hill).nMediaTimes ∧
    (∀ dist draws, Summary.Props.demoSamples.group dist = some draws → draws ≠ []) ∧
    (∀ dist draws, Summary.Props.demoSamples.group dist = some draws → ∀ p ∈ draws, ∀ kd c,
      0 ≤ (paramsOf p kd).alpha c ∧ (paramsOf p kd).alpha c ≤ 1) ∧
    (∃ lo, IsLeast (observed (Mmm.Props.demo .hill) .media 0) lo) ∧
    (∃ hi, IsGreatest (observed (Mmm.Props.demo .hill) .media 0) hi) := by
  refine ⟨(decay_accepted_iff ..).2 ⟨rfl, rfl, ⟨.media, by simp [kindOf, Mmm.Props.demo]⟩,
      by simp [Mmm.Props.demo]⟩, (hill_accepted_iff ..).2 ⟨rfl, rfl,
      ⟨.media, by simp [kindOf, Mmm.Props.demo]⟩, by norm_num⟩, demo_usable _, demo_unique _,
    by simp [Mmm.Props.demo], ?_, ?_, ?_, ⟨_, largest_observed (demo_usable _) .media 0⟩⟩
  · intro dist draws hd
    cases dist <;> simp only [Samples.group, Summary.Props.demoSamples, Option.some.injEq] at hd <;>
      simp [← hd]
  · intro dist draws hd p hp kd c
    have : p = Mmm.Props.demoParams 1 ∨ p = Mmm.Props.demoParams 2 := by
      cases dist <;> simp only [Samples.group, Summary.Props.demoSamples, Option.some.injEq] at hd <;>
        subst hd <;> simp at hp <;> tauto
    rcases this with rfl | rfl <;> cases kd <;> norm_num [paramsOf, Mmm.Props.demoParams]
  · have hu := demo_usable .hill
    refine ⟨smallest (histData (Mmm.Props.demo .hill) .media 0), ?_, ?_⟩
    · obtain ⟨h1, -⟩ := smallest_spec (histData_ne hu .media 0)
      obtain ⟨g, hg, t, ht, e⟩ := mem_observations.1 h1
      exact ⟨g, hg, t, ht, by rw [← input_factor hu]; exact e.symm⟩
    · rintro v ⟨g, hg, t, ht, rfl⟩
      rw [← input_factor hu]
      exact (smallest_spec (histData_ne hu .media 0)).2 _ (mem_observations.2 ⟨g, hg, t, ht, rfl⟩)

end Verif.MediaCurves.Props
