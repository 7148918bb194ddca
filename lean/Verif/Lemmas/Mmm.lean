import Verif.Model.Mmm
import Verif.Spec.Mmm
import Verif.Lemmas.Adstock
import Mathlib.Tactic.Ring
import Mathlib.Tactic.Linarith
import Mathlib.Tactic.FieldSimp

namespace Verif.Mmm

open Verif.Adstock Verif.Adstock.Spec Verif.Transformers Verif.Mmm.Spec Finset

theorem adstockForward_congr {ctx : Ctx} {k : MediaKind} {α : ℕ → ℝ} {nIn nOut : ℕ} {x y : T3}
    {g t c : ℕ} (h : ∀ t < nIn, x g t c = y g t c) :
    adstockForward ctx k α nIn nOut x g t c = adstockForward ctx k α nIn nOut y g t c := by
  unfold adstockForward
  have : series x nIn g c = series y nIn g c := by
    unfold series
    apply List.map_congr_left
    intro u hu
    exact h u (List.mem_range.1 hu)
  rw [this]

theorem adstockForward_zero {ctx : Ctx} {k : MediaKind} {α : ℕ → ℝ} {nIn nOut : ℕ} {x : T3}
    {g t c : ℕ} (h : ∀ t < nIn, x g t c = 0) :
    adstockForward ctx k α nIn nOut x g t c = 0 := by
  rw [adstockForward_congr (y := fun _ _ _ => 0) h]
  unfold adstockForward
  by_cases h1 : 0 < nOut ∧ nOut ≤ nIn
  · rw [adstock_eq _ _ _ _ _ _ h1.1 (by simp [series]; exact h1.2)]
    unfold entry
    simp only
    rw [List.getD_eq_getElem?_getD, List.getElem?_map]
    have hz : ∀ i, mediaAt (series (fun _ _ _ => (0 : ℝ)) nIn g c) i = 0 := by
      intro i
      unfold mediaAt
      split_ifs
      · rw [List.getD_eq_getElem?_getD]
        unfold series
        rw [List.getElem?_map]
        cases (List.range nIn)[i.toNat]? <;> simp
      · rfl
    cases (List.range nOut)[t]? with
    | none => simp
    | some u => simp [adstockAt, hz]
  · unfold adstock
    have hl : (series (fun _ _ _ => (0 : ℝ)) nIn g c).length = nIn := by simp [series]
    rw [hl]
    by_cases h2 : (nIn : ℤ) < nOut
    · rw [if_pos h2]; rfl
    · rw [if_neg h2, if_pos (by omega)]; rfl

theorem adstockHillMedia_congr {ctx : Ctx} {k : MediaKind} {p : MediaParams} {nIn nOut : ℕ}
    {x y : T3} {g t c : ℕ} (h : ∀ t, x g t c = y g t c) :
    adstockHillMedia ctx k p nIn nOut x g t c = adstockHillMedia ctx k p nIn nOut y g t c := by
  unfold adstockHillMedia
  split_ifs with hb
  · apply adstockForward_congr
    intro u _
    simp only [hillForward, h]
  · simp only [hillForward]
    rw [adstockForward_congr fun u _ => h u]

theorem adstockHillRf_congr {ctx : Ctx} {k : MediaKind} {p : MediaParams} {nIn nOut : ℕ}
    {r r' f f' : T3} {g t c : ℕ} (h : ∀ t, r g t c = r' g t c) (h' : ∀ t, f g t c = f' g t c) :
    adstockHillRf ctx k p nIn nOut r f g t c = adstockHillRf ctx k p nIn nOut r' f' g t c := by
  unfold adstockHillRf
  apply adstockForward_congr
  intro u _
  simp only [hillForward, h, h']

theorem hill_zero {ec slope : ℝ} (h : 0 < slope) : hill 0 ec slope = 0 := by
  unfold hill; rw [Real.zero_rpow h.ne']; simp

theorem adstockHillMedia_zero {ctx : Ctx} {k : MediaKind} {p : MediaParams} {nIn nOut : ℕ}
    {x : T3} {g t c : ℕ} (h : ∀ t < nIn, x g t c = 0) (hs : 0 < p.slope c) :
    adstockHillMedia ctx k p nIn nOut x g t c = 0 := by
  unfold adstockHillMedia
  split_ifs with hb
  · apply adstockForward_zero
    intro u hu
    simp only [hillForward, h u hu, hill_zero hs]
    split_ifs <;> rfl
  · simp only [hillForward]
    rw [adstockForward_zero h, hill_zero hs]
    split_ifs <;> rfl

theorem adstockHillRf_zero {ctx : Ctx} {k : MediaKind} {p : MediaParams} {nIn nOut : ℕ}
    {r f : T3} {g t c : ℕ} (h : ∀ t < nIn, r g t c = 0 ∨ f g t c = 0) (hs : 0 < p.slope c) :
    adstockHillRf ctx k p nIn nOut r f g t c = 0 := by
  unfold adstockHillRf
  apply adstockForward_zero
  intro u hu
  rcases h u hu with h | h
  · rw [h]; ring
  · simp only [hillForward, h, hill_zero hs]
    split_ifs <;> ring

/-- The transformed value of a channel. -/
noncomputable def value (ctx : Ctx) (p : Params) (D : Data) (nOut : ℕ) (ch : Chan) (g t : ℕ) : ℝ :=
  match ch with
  | .media c => adstockHillMedia ctx ctx.media p.media D.nMediaTimes nOut D.media g t c
  | .rf c => adstockHillRf ctx ctx.rf p.rf D.nMediaTimes nOut D.reach D.frequency g t c
  | .organicMedia c =>
    adstockHillMedia ctx ctx.organicMedia p.organicMedia D.nMediaTimes nOut D.organicMedia g t c
  | .organicRf c => adstockHillRf ctx ctx.organicRf p.organicRf D.nMediaTimes nOut D.organicReach
      D.organicFrequency g t c
  | .nonMedia _ => 0

/-- The coefficient of a channel. -/
def coef (p : Params) (ch : Chan) (g : ℕ) : ℝ :=
  match ch with
  | .media c => p.media.beta g c
  | .rf c => p.rf.beta g c
  | .organicMedia c => p.organicMedia.beta g c
  | .organicRf c => p.organicRf.beta g c
  | .nonMedia c => p.gammaN g c

/-- Not a non-media channel. -/
def MediaLike : Chan → Prop
  | .nonMedia _ => False
  | _ => True

theorem pos_lt {ctx : Ctx} {ch : Chan} (hv : ch.Valid ctx) (hm : MediaLike ch) :
    ch.pos ctx < nMediaLike ctx := by
  unfold nMediaLike
  cases ch <;> simp only [Chan.Valid, Chan.pos, MediaLike] at * <;> omega

theorem exists_chan {ctx : Ctx} {m : ℕ} (h : m < nMediaLike ctx) :
    ∃ ch : Chan, ch.Valid ctx ∧ MediaLike ch ∧ ch.pos ctx = m := by
  unfold nMediaLike at h
  by_cases h1 : m < ctx.media.n
  · exact ⟨.media m, h1, trivial, rfl⟩
  by_cases h2 : m < ctx.media.n + ctx.rf.n
  · exact ⟨.rf (m - ctx.media.n), by simp only [Chan.Valid]; omega, trivial,
      by simp only [Chan.pos]; omega⟩
  by_cases h3 : m < ctx.media.n + ctx.rf.n + ctx.organicMedia.n
  · exact ⟨.organicMedia (m - (ctx.media.n + ctx.rf.n)), by simp only [Chan.Valid]; omega, trivial,
      by simp only [Chan.pos]; omega⟩
  · exact ⟨.organicRf (m - (ctx.media.n + ctx.rf.n + ctx.organicMedia.n)),
      by simp only [Chan.Valid]; omega, trivial, by simp only [Chan.pos]; omega⟩

theorem transformedMedia_pos {ctx : Ctx} {p : Params} {D : Data} {nOut : ℕ} {ch : Chan}
    (hv : ch.Valid ctx) (hm : MediaLike ch) (g t : ℕ) :
    transformedMedia ctx p D nOut g t (ch.pos ctx) = value ctx p D nOut ch g t := by
  cases ch <;> simp only [Chan.Valid, Chan.pos, MediaLike] at * <;> unfold transformedMedia concat value
  · rw [if_pos (by omega), if_pos (by omega), if_pos (by omega)]
  · rw [if_pos (by omega), if_pos (by omega), if_neg (by omega)]; congr 1; omega
  · rw [if_pos (by omega), if_neg (by omega)]; congr 1; omega
  · rw [if_neg (by omega)]; congr 1; omega

theorem combinedBeta_pos {ctx : Ctx} {p : Params} {ch : Chan}
    (hv : ch.Valid ctx) (hm : MediaLike ch) (g : ℕ) :
    combinedBeta ctx p g (ch.pos ctx) = coef p ch g := by
  cases ch <;> simp only [Chan.Valid, Chan.pos, MediaLike] at * <;> unfold combinedBeta concatB coef
  · rw [if_pos (by omega), if_pos (by omega), if_pos (by omega)]
  · rw [if_pos (by omega), if_pos (by omega), if_neg (by omega)]; congr 1; omega
  · rw [if_pos (by omega), if_neg (by omega)]; congr 1; omega
  · rw [if_neg (by omega)]; congr 1; omega

theorem multiplier_eq (s : ℝ) (sel : ℕ → Bool) (t : ℕ) :
    multiplier s sel t = if sel t = true then s else 1 := by
  unfold multiplier; split_ifs <;> ring

theorem scaleOne_self {c : ℕ} {s : ℝ} {sel : ℕ → Bool} {x : T3} {g t : ℕ} :
    scaleOne c s sel x g t c = x g t c * multiplier s sel t := by
  unfold scaleOne
  rw [multiplier_eq]
  by_cases h : sel t = true <;> simp [h]

theorem scaleOne_other {c c' : ℕ} {s : ℝ} {sel : ℕ → Bool} {x : T3} {g t : ℕ} (h : c' ≠ c) :
    scaleOne c s sel x g t c' = x g t c' := by
  unfold scaleOne; rw [if_neg (by simp [h])]

theorem scaleMedia_congr {ctx : Ctx} {k : MediaKind} {x y : T3} {g t c : ℕ}
    (h : x g t c = y g t c) : scaleMedia ctx k x g t c = scaleMedia ctx k y g t c := by
  unfold scaleMedia mediaForward; simp only [h]

theorem scaleMedia_zero {ctx : Ctx} {k : MediaKind} {x : T3} {g t c : ℕ}
    (h : x g t c = 0) : scaleMedia ctx k x g t c = 0 := by
  unfold scaleMedia mediaForward; simp [h]

/-- The treated channel has the transformed value it has when all channels are multiplied. -/
theorem value_treat_self {ctx : Ctx} {p : Params} {d : Data} {nOut : ℕ} {ch : Chan}
    (hm : MediaLike ch) (s : ℝ) (sel : ℕ → Bool) (br : Bool) (g t : ℕ) :
    value ctx p (scaleData ctx (treat d ch s sel br)) nOut ch g t
      = value ctx p (scaleData ctx (scaleByMultiplier d (multiplier s sel) br)) nOut ch g t := by
  cases ch with
  | media c =>
    simp only [value, treat, scaleData, scaleByMultiplier]
    exact adstockHillMedia_congr fun u => scaleMedia_congr scaleOne_self
  | organicMedia c =>
    simp only [value, treat, scaleData, scaleByMultiplier]
    exact adstockHillMedia_congr fun u => scaleMedia_congr scaleOne_self
  | rf c =>
    cases br
    · simp only [value, treat, scaleData, scaleByMultiplier]
      exact adstockHillRf_congr (fun u => scaleMedia_congr (by simp)) fun u => by
        simp only [Bool.false_eq_true, if_false]; exact scaleOne_self
    · simp only [value, treat, scaleData, scaleByMultiplier]
      exact adstockHillRf_congr (fun u => scaleMedia_congr (by
        simp only [if_true]; exact scaleOne_self)) fun u => by simp
  | organicRf c =>
    cases br
    · simp only [value, treat, scaleData, scaleByMultiplier]
      exact adstockHillRf_congr (fun u => scaleMedia_congr (by simp)) fun u => by
        simp only [Bool.false_eq_true, if_false]; exact scaleOne_self
    · simp only [value, treat, scaleData, scaleByMultiplier]
      exact adstockHillRf_congr (fun u => scaleMedia_congr (by
        simp only [if_true]; exact scaleOne_self)) fun u => by simp
  | nonMedia c => exact hm.elim

/-- Another channel keeps its transformed value. -/
theorem value_treat_other {ctx : Ctx} {p : Params} {d : Data} {nOut : ℕ} {ch ch' : Chan}
    (hne : ch' ≠ ch) (s : ℝ) (sel : ℕ → Bool) (br : Bool) (g t : ℕ) :
    value ctx p (scaleData ctx (treat d ch s sel br)) nOut ch' g t
      = value ctx p (scaleData ctx d) nOut ch' g t := by
  have h : ∀ (c c' : ℕ) (x : T3) (u : ℕ), c' ≠ c →
      scaleOne c s sel x g u c' = x g u c' := fun c c' x u h => scaleOne_other h
  cases ch with
  | nonMedia c => rfl
  | media c =>
    cases ch' <;> simp only [value, treat, scaleData]
    exact adstockHillMedia_congr fun u => scaleMedia_congr (h _ _ _ _ fun e => hne (by rw [e]))
  | organicMedia c =>
    cases ch' <;> simp only [value, treat, scaleData]
    exact adstockHillMedia_congr fun u => scaleMedia_congr (h _ _ _ _ fun e => hne (by rw [e]))
  | rf c =>
    cases br <;> cases ch' <;> simp only [value, treat, scaleData, Bool.false_eq_true, if_false, if_true]
    · exact adstockHillRf_congr (fun u => rfl) fun u => (h _ _ _ _ fun e => hne (by rw [e]))
    · exact adstockHillRf_congr (fun u => scaleMedia_congr (h _ _ _ _ fun e => hne (by rw [e])))
        fun u => rfl
  | organicRf c =>
    cases br <;> cases ch' <;> simp only [value, treat, scaleData, Bool.false_eq_true, if_false, if_true]
    · exact adstockHillRf_congr (fun u => rfl) fun u => (h _ _ _ _ fun e => hne (by rw [e]))
    · exact adstockHillRf_congr (fun u => scaleMedia_congr (h _ _ _ _ fun e => hne (by rw [e])))
        fun u => rfl

theorem treat_nonMedia (d : Data) (ch : Chan) (s : ℝ) (sel : ℕ → Bool) (br : Bool) :
    (treat d ch s sel br).nonMedia = d.nonMedia ∧ (treat d ch s sel br).controls = d.controls ∧
      (treat d ch s sel br).revenuePerKpi = d.revenuePerKpi ∧
      (treat d ch s sel br).nMediaTimes = d.nMediaTimes := by
  cases ch <;> cases br <;> simp [treat]

/-- With every media time selected and factor zero, the transformed value is zero. -/
theorem value_zero {ctx : Ctx} {p : Params} {d : Data} {nOut : ℕ} {ch : Chan}
    (hp : SlopesPos ctx p) (hv : ch.Valid ctx) (sel : ℕ → Bool)
    (hsel : ∀ t < d.nMediaTimes, sel t = true) (br : Bool) (g t : ℕ) :
    value ctx p (scaleData ctx (scaleByMultiplier d (multiplier 0 sel) br)) nOut ch g t = 0 := by
  obtain ⟨h1, h2, h3, h4⟩ := hp
  have hm : ∀ t < d.nMediaTimes, multiplier 0 sel t = 0 := by
    intro t ht; rw [multiplier_eq, if_pos (hsel t ht)]
  cases ch with
  | media c =>
    simp only [value, scaleData, scaleByMultiplier]
    exact adstockHillMedia_zero (fun u hu => scaleMedia_zero (by simp [hm u hu])) (h1 c hv)
  | organicMedia c =>
    simp only [value, scaleData, scaleByMultiplier]
    exact adstockHillMedia_zero (fun u hu => scaleMedia_zero (by simp [hm u hu])) (h3 c hv)
  | rf c =>
    simp only [value, scaleData, scaleByMultiplier]
    refine adstockHillRf_zero (fun u hu => ?_) (h2 c hv)
    cases br
    · exact .inr (by simp [hm u hu])
    · exact .inl (scaleMedia_zero (by simp [hm u hu]))
  | organicRf c =>
    simp only [value, scaleData, scaleByMultiplier]
    refine adstockHillRf_zero (fun u hu => ?_) (h4 c hv)
    cases br
    · exact .inr (by simp [hm u hu])
    · exact .inl (scaleMedia_zero (by simp [hm u hu]))
  | nonMedia c => rfl

theorem value_baseline {ctx : Ctx} {p : Params} {nOut : ℕ} {ch : Chan}
    (hp : SlopesPos ctx p) (hv : ch.Valid ctx) (b : ℕ → ℝ) (g t : ℕ) :
    value ctx p (scaleData ctx (baselineData ctx b)) nOut ch g t = 0 := by
  obtain ⟨h1, h2, h3, h4⟩ := hp
  cases ch with
  | media c => exact adstockHillMedia_zero (fun u hu => scaleMedia_zero rfl) (h1 c hv)
  | organicMedia c => exact adstockHillMedia_zero (fun u hu => scaleMedia_zero rfl) (h3 c hv)
  | rf c => exact adstockHillRf_zero (fun u hu => .inl (scaleMedia_zero rfl)) (h2 c hv)
  | organicRf c => exact adstockHillRf_zero (fun u hu => .inl (scaleMedia_zero rfl)) (h4 c hv)
  | nonMedia c => rfl

theorem value_counterfactual {ctx : Ctx} {p : Params} {d : Data} {nOut : ℕ} (ch : Chan)
    (s : ℝ) (sel : ℕ → Bool) (br : Bool) (b : ℕ → ℝ) (isB : Bool) (g t : ℕ) :
    value ctx p (counterfactual ctx d s sel br b isB) nOut ch g t
      = value ctx p (scaleData ctx (scaleByMultiplier d (multiplier s sel) br)) nOut ch g t := by
  unfold counterfactual
  cases isB <;> cases ch <;> rfl

/-- Difference of two inverse-transformed KPI values. -/
theorem kpiInverse_sub (k : Kpi) (x y : Panel) (g t : ℕ) :
    kpiInverse k x g t - kpiInverse k y g t = (x g t - y g t) * k.std * k.pop g := by
  unfold kpiInverse; ring

/-- From the model scale to the requested outcome scale. -/
noncomputable def unit (ctx : Ctx) (d : Data) (inverse uk : Bool) (g t : ℕ) : ℝ :=
  if inverse then
    ctx.kpiT.std * ctx.kpiT.pop g * if useKpi ctx uk then 1 else revenue ctx d g t
  else 1

theorem useKpi_idem {ctx : Ctx} (hw : WF ctx) (b : Bool) :
    useKpi ctx (useKpi ctx b) = useKpi ctx b := by
  have := hw.rev
  unfold useKpi
  revert this
  cases b <;> cases ctx.kpiIsRevenue <;> cases ctx.data.revenuePerKpi <;> simp

theorem expectedOutcome_sub (ctx : Ctx) (p : Params) (d d' : Data) (inverse uk : Bool) (g t : ℕ)
    (hr : d.revenuePerKpi = d'.revenuePerKpi) :
    expectedOutcome ctx p d inverse uk g t - expectedOutcome ctx p d' inverse uk g t
      = (kpiMeans ctx p (scaleData ctx d) g t - kpiMeans ctx p (scaleData ctx d') g t)
        * unit ctx d inverse uk g t := by
  have hr' : revenue ctx d' = revenue ctx d := by unfold revenue; rw [hr]
  unfold expectedOutcome unit
  simp only
  rw [hr']
  split_ifs
  · rw [kpiInverse_sub]; ring
  · rw [← sub_mul, kpiInverse_sub]; ring
  · ring

theorem incrementalImpl_eq {ctx : Ctx} (hw : WF ctx) (p : Params) (D : Data) (bn : ℕ → ℝ) (inverse uk : Bool)
    (g t c : ℕ) :
    incrementalImpl ctx p D bn inverse uk g t c
      = incrementalKpi ctx p D bn g t c * unit ctx D inverse uk g t := by
  unfold incrementalImpl unit
  cases inverse with
  | false => simp
  | true =>
    simp only [if_true, inverseOutcome, useKpi_idem hw]
    rw [kpiInverse_sub]
    split_ifs <;> ring

theorem incrementalKpi_media {ctx : Ctx} {p : Params} {D : Data} {bn : ℕ → ℝ} {ch : Chan}
    (hv : ch.Valid ctx) (hm : MediaLike ch) (g t : ℕ) :
    incrementalKpi ctx p D bn g t (ch.pos ctx)
      = value ctx p D (nTimesOutput ctx D.nMediaTimes) ch g t * coef p ch g := by
  unfold incrementalKpi concat
  rw [if_pos (pos_lt hv hm)]
  simp only
  rw [transformedMedia_pos hv hm, combinedBeta_pos hv hm]

theorem incrementalKpi_nonMedia {ctx : Ctx} {p : Params} {D : Data} {bn : ℕ → ℝ} {c : ℕ} (g t : ℕ) :
    incrementalKpi ctx p D bn g t ((Chan.nonMedia c).pos ctx)
      = (D.nonMedia g t c - bn c) * p.gammaN g c := by
  unfold incrementalKpi concat
  have e : (Chan.nonMedia c).pos ctx = nMediaLike ctx + c := rfl
  rw [e, if_neg (by omega)]
  simp

theorem unit_counterfactual (ctx : Ctx) (d : Data) (s : ℝ) (sel : ℕ → Bool) (br : Bool) (b : ℕ → ℝ)
    (isB inverse uk : Bool) (g t : ℕ) :
    unit ctx (counterfactual ctx d s sel br b isB) inverse uk g t = unit ctx d inverse uk g t := by
  have : (counterfactual ctx d s sel br b isB).revenuePerKpi = d.revenuePerKpi := by
    unfold counterfactual; cases isB <;> rfl
  have hr : revenue ctx (counterfactual ctx d s sel br b isB) = revenue ctx d := by
    unfold revenue; rw [this]
  unfold unit
  rw [hr]

theorem counterfactual_times (ctx : Ctx) (d : Data) (s : ℝ) (sel : ℕ → Bool) (br : Bool) (b : ℕ → ℝ)
    (isB : Bool) : (counterfactual ctx d s sel br b isB).nMediaTimes = d.nMediaTimes := by
  unfold counterfactual; cases isB <;> rfl

/-- Sum over the media-like channels when all but one term vanish. -/
theorem kpiMeans_sub_one {ctx : Ctx} {p : Params} {D D' : Data} {ch : Chan}
    (hv : ch.Valid ctx) (hm : MediaLike ch) (g t : ℕ)
    (ho : ∀ ch', ch' ≠ ch → value ctx p D ctx.nTimes ch' g t = value ctx p D' ctx.nTimes ch' g t)
    (hc : D.controls = D'.controls) (hn : D.nonMedia = D'.nonMedia) :
    kpiMeans ctx p D g t - kpiMeans ctx p D' g t
      = (value ctx p D ctx.nTimes ch g t - value ctx p D' ctx.nTimes ch g t) * coef p ch g := by
  unfold kpiMeans
  rw [hc, hn]
  have h : ∑ m ∈ range (nMediaLike ctx), transformedMedia ctx p D ctx.nTimes g t m
        * combinedBeta ctx p g m
      - ∑ m ∈ range (nMediaLike ctx), transformedMedia ctx p D' ctx.nTimes g t m
        * combinedBeta ctx p g m
      = (value ctx p D ctx.nTimes ch g t - value ctx p D' ctx.nTimes ch g t) * coef p ch g := by
    rw [← Finset.sum_sub_distrib, Finset.sum_eq_single (ch.pos ctx)]
    · rw [transformedMedia_pos hv hm, transformedMedia_pos hv hm, combinedBeta_pos hv hm]; ring
    · intro m hmem hne
      obtain ⟨ch', hv', hm', rfl⟩ := exists_chan (mem_range.1 hmem)
      rw [transformedMedia_pos hv' hm', transformedMedia_pos hv' hm',
        ho ch' (fun e => hne (by rw [e]))]
      ring
    · intro h
      exact absurd (mem_range.2 (pos_lt hv hm)) h
  linarith

theorem csForward_baseline {ctx : Ctx} (hw : WF ctx) (b : ℕ → ℝ) (x : T3) (g t c : ℕ)
    (hx : x g t c = b c * nonMediaFactor ctx g c) :
    scaleCs ctx.nonMediaT x true g t c = baselineNormalized ctx b c := by
  unfold baselineNormalized scaleCs csForward
  simp only [hw.factors c]
  cases h : ctx.nonMediaPopScaling with
  | none => simp [hx, nonMediaFactor, h]
  | some f =>
    simp only [Option.map_some, if_true, hx, nonMediaFactor, h, Bool.false_eq_true, if_false]
    have := (hw.pop g).ne'
    split_ifs
    · rw [mul_div_assoc, div_self this, mul_one]
    · simp

/-- The control and non-media parts cancel channel by channel. -/
theorem kpiMeans_sub_all {ctx : Ctx} {p : Params} {D D' : Data} (g t : ℕ)
    (hc : D.controls = D'.controls) :
    kpiMeans ctx p D g t - kpiMeans ctx p D' g t
      = (∑ m ∈ range (nMediaLike ctx), (transformedMedia ctx p D ctx.nTimes g t m
          - transformedMedia ctx p D' ctx.nTimes g t m) * combinedBeta ctx p g m)
        + ∑ n ∈ range ctx.nNonMedia, (D.nonMedia g t n - D'.nonMedia g t n) * p.gammaN g n := by
  unfold kpiMeans
  rw [hc]
  simp only [sub_mul, Finset.sum_sub_distrib]
  ring

/-- The incremental outcome at the position of a media-like channel. -/
theorem incrementalOutcome_media {ctx : Ctx} (hw : WF ctx) {p : Params} (hp : SlopesPos ctx p)
    {d : Data} {ch : Chan} (hv : ch.Valid ctx) (hm : MediaLike ch) (b : ℕ → ℝ) (s0 s1 : ℝ)
    (sel : ℕ → Bool) (br inverse uk : Bool) (g t : ℕ) :
    incrementalOutcome ctx p d b s0 s1 sel br inverse uk g t (ch.pos ctx)
      = (value ctx p (scaleData ctx (treat d ch s1 sel br)) (nTimesOutput ctx d.nMediaTimes) ch g t
        - value ctx p (scaleData ctx (treat d ch s0 sel br)) (nTimesOutput ctx d.nMediaTimes) ch g t)
        * coef p ch g * unit ctx d inverse uk g t := by
  rw [value_treat_self hm, value_treat_self hm]
  unfold incrementalOutcome
  simp only
  split_ifs with h0
  · show incrementalImpl _ _ _ _ _ _ _ _ _ - incrementalImpl _ _ _ _ _ _ _ _ _ = _
    rw [incrementalImpl_eq hw, incrementalImpl_eq hw, incrementalKpi_media hv hm,
      incrementalKpi_media hv hm, unit_counterfactual, unit_counterfactual, value_counterfactual,
      value_counterfactual, counterfactual_times, counterfactual_times]
    ring
  · simp only [not_or, not_not, not_exists, not_and, Bool.not_eq_false] at h0
    obtain ⟨rfl, h0⟩ := h0
    rw [incrementalImpl_eq hw, incrementalKpi_media hv hm, unit_counterfactual,
      value_counterfactual, counterfactual_times, value_zero hp hv sel h0]
    ring

/-- The incremental outcome at the position of a non-media channel. -/
theorem incrementalOutcome_nonMedia {ctx : Ctx} (hw : WF ctx) {p : Params}
    {d : Data} (c : ℕ) (b : ℕ → ℝ) (s0 s1 : ℝ)
    (sel : ℕ → Bool) (br inverse uk : Bool) (g t : ℕ) :
    incrementalOutcome ctx p d b s0 s1 sel br inverse uk g t ((Chan.nonMedia c).pos ctx)
      = (scaleCs ctx.nonMediaT d.nonMedia true g t c - baselineNormalized ctx b c)
        * p.gammaN g c * unit ctx d inverse uk g t := by
  unfold incrementalOutcome
  simp only
  split_ifs with h0
  · show incrementalImpl _ _ _ _ _ _ _ _ _ - incrementalImpl _ _ _ _ _ _ _ _ _ = _
    rw [incrementalImpl_eq hw, incrementalImpl_eq hw, incrementalKpi_nonMedia,
      incrementalKpi_nonMedia, unit_counterfactual, unit_counterfactual]
    simp [counterfactual, scaleData, scaleByMultiplier]
  · rw [incrementalImpl_eq hw, incrementalKpi_nonMedia, unit_counterfactual]
    simp [counterfactual, scaleData, scaleByMultiplier]

end Verif.Mmm
