import Verif.Lemmas.Sampler
import Verif.Props.Metrics

/-!
# C30, C31, C32, C33: what the samplers compute from the draws
-/

namespace Verif.Sampler.Props

open Verif.Mmm Verif.Mmm.Spec Verif.Sampler Verif.Sampler.Spec Verif.Transformers Finset

theorem posterior_fields {s : Setup} {l : Draw} {p : Params} (h : posterior s l = .ok p) :
    p.media = withGeos s.normal l.media (posteriorBetaM s l.media) ∧
    p.rf = withGeos s.normal l.rf (posteriorBetaRf s l.rf) ∧
    (∃ b, p.organicMedia = withGeos s.normal l.organicMedia b ∧
      (s.ctx.organicMedia.n ≠ 0 → posteriorBetaOm s l.organicMedia = .ok b)) ∧
    (∃ b, p.organicRf = withGeos s.normal l.organicRf b ∧
      (s.ctx.organicRf.n ≠ 0 → posteriorBetaOrf s l.organicRf = .ok b)) ∧
    (∃ b : ℕ → ℝ, (p.gammaN = fun g c => b c + l.xiN c * l.gammaGnDev g c) ∧
      (s.ctx.nNonMedia ≠ 0 → posteriorGammaN s l = .ok b)) := by
  unfold posterior at h
  split at h
  · cases h
  rename_i bom hbom
  split at h
  · cases h
  rename_i borf hborf
  split at h
  · cases h
  rename_i gn hgn
  simp only [Except.ok.injEq] at h
  subst h
  refine ⟨rfl, rfl, ⟨bom, rfl, fun hn => ?_⟩, ⟨borf, rfl, fun hn => ?_⟩, ⟨gn, rfl, fun hn => ?_⟩⟩
  · rwa [present, if_neg hn] at hbom
  · rwa [present, if_neg hn] at hborf
  · rwa [present, if_neg hn] at hgn

theorem slopes {s : Setup} {l : Draw} {p : Params} (h : posterior s l = .ok p) (hl : DrawOk l) :
    SlopesPos s.ctx p := by
  obtain ⟨h1, h2, ⟨_, h3, _⟩, ⟨_, h4, _⟩, _⟩ := posterior_fields h
  refine ⟨fun c _ => ?_, fun c _ => ?_, fun c _ => ?_, fun c _ => ?_⟩
  · rw [h1]; exact hl.media.slope c
  · rw [h2]; exact hl.rf.slope c
  · rw [h3]; exact hl.organicMedia.slope c
  · rw [h4]; exact hl.organicRf.slope c

/-- The media tensor of a kind, with one channel treated. -/
theorem value_media {s : Setup} (hs : Ok s) {p : Params} {l : KindDraw} {b : ℕ → ℝ} {n br : Bool}
    (hp : p.media = withGeos n l b) {c : ℕ} (a : ℝ) (sel : ℕ → Bool) (g t : ℕ) :
    value s.ctx p (scaleData s.ctx (treat s.ctx.data (.media c) a sel br)) s.ctx.nTimes (.media c) g t
      = adstockHillMedia s.ctx s.ctx.media (l.params fun _ _ => 0) s.ctx.nMediaTimes s.ctx.nTimes
        (fun g t c => scaleMedia s.ctx s.ctx.media s.ctx.data.media g t c * if sel t = true then a else 1)
        g t c := by
  show adstockHillMedia s.ctx s.ctx.media p.media s.ctx.data.nMediaTimes _ _ g t c = _
  rw [hp, hs.wf.times]
  show adstockHillMedia s.ctx s.ctx.media (l.params fun _ _ => 0) _ _ _ g t c = _
  exact adstockHillMedia_congr fun u => scaleMedia_scaleOne a sel

theorem value_organicMedia {s : Setup} (hs : Ok s) {p : Params} {l : KindDraw} {b : ℕ → ℝ} {n br : Bool}
    (hp : p.organicMedia = withGeos n l b) {c : ℕ} (a : ℝ) (sel : ℕ → Bool) (g t : ℕ) :
    value s.ctx p (scaleData s.ctx (treat s.ctx.data (.organicMedia c) a sel br)) s.ctx.nTimes
        (.organicMedia c) g t
      = adstockHillMedia s.ctx s.ctx.organicMedia (l.params fun _ _ => 0) s.ctx.nMediaTimes s.ctx.nTimes
        (fun g t c => scaleMedia s.ctx s.ctx.organicMedia s.ctx.data.organicMedia g t c
          * if sel t = true then a else 1) g t c := by
  show adstockHillMedia s.ctx s.ctx.organicMedia p.organicMedia s.ctx.data.nMediaTimes _ _ g t c = _
  rw [hp, hs.wf.times]
  show adstockHillMedia s.ctx s.ctx.organicMedia (l.params fun _ _ => 0) _ _ _ g t c = _
  exact adstockHillMedia_congr fun u => scaleMedia_scaleOne a sel

theorem value_rf {s : Setup} (hs : Ok s) {p : Params} {l : KindDraw} {b : ℕ → ℝ} {n : Bool}
    (hp : p.rf = withGeos n l b) {c : ℕ} (a : ℝ) (sel : ℕ → Bool) (g t : ℕ) :
    value s.ctx p (scaleData s.ctx (treat s.ctx.data (.rf c) a sel true)) s.ctx.nTimes (.rf c) g t
      = adstockHillRf s.ctx s.ctx.rf (l.params fun _ _ => 0) s.ctx.nMediaTimes s.ctx.nTimes
        (fun g t c => scaleMedia s.ctx s.ctx.rf s.ctx.data.reach g t c * if sel t = true then a else 1)
        s.ctx.data.frequency g t c := by
  show adstockHillRf s.ctx s.ctx.rf p.rf s.ctx.data.nMediaTimes _ _ _ g t c = _
  rw [hp, hs.wf.times]
  show adstockHillRf s.ctx s.ctx.rf (l.params fun _ _ => 0) _ _ _ _ g t c = _
  exact adstockHillRf_congr (fun u => scaleMedia_scaleOne a sel) fun u => rfl

theorem value_organicRf {s : Setup} (hs : Ok s) {p : Params} {l : KindDraw} {b : ℕ → ℝ} {n : Bool}
    (hp : p.organicRf = withGeos n l b) {c : ℕ} (a : ℝ) (sel : ℕ → Bool) (g t : ℕ) :
    value s.ctx p (scaleData s.ctx (treat s.ctx.data (.organicRf c) a sel true)) s.ctx.nTimes
        (.organicRf c) g t
      = adstockHillRf s.ctx s.ctx.organicRf (l.params fun _ _ => 0) s.ctx.nMediaTimes s.ctx.nTimes
        (fun g t c => scaleMedia s.ctx s.ctx.organicRf s.ctx.data.organicReach g t c
          * if sel t = true then a else 1) s.ctx.data.organicFrequency g t c := by
  show adstockHillRf s.ctx s.ctx.organicRf p.organicRf s.ctx.data.nMediaTimes _ _ _ g t c = _
  rw [hp, hs.wf.times]
  show adstockHillRf s.ctx s.ctx.organicRf (l.params fun _ _ => 0) _ _ _ _ g t c = _
  exact adstockHillRf_congr (fun u => scaleMedia_scaleOne a sel) fun u => rfl

theorem scaled_nonneg {s : Setup} (hs : Ok s) (g t c : ℕ) :
    0 ≤ scaleMedia s.ctx s.ctx.media s.ctx.data.media g t c ∧
    0 ≤ scaleMedia s.ctx s.ctx.rf s.ctx.data.reach g t c ∧
    0 ≤ scaleMedia s.ctx s.ctx.organicMedia s.ctx.data.organicMedia g t c ∧
    0 ≤ scaleMedia s.ctx s.ctx.organicRf s.ctx.data.organicReach g t c :=
  ⟨Curves.scaleMedia_nonneg (hs.mediaMedian c) (hs.wf.pop g).le (hs.media g t c),
   Curves.scaleMedia_nonneg (hs.rfMedian c) (hs.wf.pop g).le (hs.reach g t c),
   Curves.scaleMedia_nonneg (hs.organicMediaMedian c) (hs.wf.pop g).le (hs.organicMedia g t c),
   Curves.scaleMedia_nonneg (hs.organicRfMedian c) (hs.wf.pop g).le (hs.organicReach g t c)⟩


/-- Transformed media of a draw, with the execution of the channels multiplied by a factor over time. -/
noncomputable abbrev mediaAt (s : Setup) (k : MediaKind) (l : KindDraw) (x : T3) (m : ℕ → ℝ) : T3 :=
  adstockHillMedia s.ctx k (l.params fun _ _ => 0) s.ctx.nMediaTimes s.ctx.nTimes
    (fun g t c => x g t c * m t)

noncomputable abbrev rfAt (s : Setup) (k : MediaKind) (l : KindDraw) (x f : T3) (m : ℕ → ℝ) : T3 :=
  adstockHillRf s.ctx k (l.params fun _ _ => 0) s.ctx.nMediaTimes s.ctx.nTimes
    (fun g t c => x g t c * m t) f

theorem mediaAt_mono {s : Setup} {k : MediaKind} {l : KindDraw} (hl : KindOk l) {x : T3} {c : ℕ}
    (hx : ∀ g t, 0 ≤ x g t c) {m m' : ℕ → ℝ} (h0 : ∀ t, 0 ≤ m t) (h : ∀ t, m t ≤ m' t) (g t : ℕ) :
    mediaAt s k l x m g t c ≤ mediaAt s k l x m' g t c :=
  Curves.adstockHillMedia_mono (hl.alpha c) (hl.ec c) (hl.slope c)
    (fun t => mul_nonneg (hx g t) (h0 t)) fun t => mul_le_mul_of_nonneg_left (h t) (hx g t)

theorem rfAt_mono {s : Setup} {k : MediaKind} {l : KindDraw} (hl : KindOk l) {x f : T3} {c : ℕ}
    (hx : ∀ g t, 0 ≤ x g t c) (hf : ∀ g t, 0 ≤ f g t c) {m m' : ℕ → ℝ} (h0 : ∀ t, 0 ≤ m t)
    (h : ∀ t, m t ≤ m' t) (g t : ℕ) :
    rfAt s k l x f m g t c ≤ rfAt s k l x f m' g t c :=
  Curves.adstockHillRf_mono (hl.alpha c) (hl.ec c) (hl.slope c)
    (fun t => mul_nonneg (hx g t) (h0 t)) (fun t => mul_le_mul_of_nonneg_left (h t) (hx g t))
    (fun t => hf g t) fun t => le_rfl

theorem mediaAt_zero {s : Setup} {k : MediaKind} {l : KindDraw} (hl : KindOk l) {x : T3} {m : ℕ → ℝ}
    (hm : ∀ t, m t = 0) (g t c : ℕ) : mediaAt s k l x m g t c = 0 :=
  adstockHillMedia_zero (fun u _ => by simp [hm]) (hl.slope c)

theorem rfAt_zero {s : Setup} {k : MediaKind} {l : KindDraw} (hl : KindOk l) {x f : T3} {m : ℕ → ℝ}
    (hm : ∀ t, m t = 0) (g t c : ℕ) : rfAt s k l x f m g t c = 0 :=
  adstockHillRf_zero (fun u _ => .inl (by simp [hm])) (hl.slope c)

theorem mediaAt_one {s : Setup} {k : MediaKind} {l : KindDraw} {x : T3} {m : ℕ → ℝ} (hm : ∀ t, m t = 1)
    (g t c : ℕ) : mediaAt s k l x m g t c = adstockHillMedia s.ctx k (l.params fun _ _ => 0)
      s.ctx.nMediaTimes s.ctx.nTimes x g t c :=
  adstockHillMedia_congr fun u => by simp [hm]

theorem rfAt_one {s : Setup} {k : MediaKind} {l : KindDraw} {x f : T3} {m : ℕ → ℝ} (hm : ∀ t, m t = 1)
    (g t c : ℕ) : rfAt s k l x f m g t c = adstockHillRf s.ctx k (l.params fun _ _ => 0)
      s.ctx.nMediaTimes s.ctx.nTimes x f g t c :=
  adstockHillRf_congr (fun u => by simp [hm]) fun u => rfl

/-! ### C30: media -/

/-- The common part for media: the difference the sampler uses is the difference between two treatments. -/
theorem prior_media {s : Setup} (hs : Ok s) {l : Draw} (hl : DrawOk l) {p : Params}
    (hp : posterior s l = .ok p) (hty : s.mediaPrior ≠ .coefficient) {c : ℕ} (hc : c < s.ctx.media.n)
    (s1 s0 : ℝ) (sel1 sel0 : ℕ → Bool)
    (hd : ∀ g t, counterfactualDifferenceMedia s.ctx
        (priorCounterfactual s.mediaPrior s.calibration (scaleMedia s.ctx s.ctx.media s.ctx.data.media))
        (transformedMediaOf s l.media) l.media g t c
      = mediaAt s s.ctx.media l.media (scaleMedia s.ctx s.ctx.media s.ctx.data.media)
          (fun t => if sel1 t = true then s1 else 1) g t c
        - mediaAt s s.ctx.media l.media (scaleMedia s.ctx s.ctx.media s.ctx.data.media)
          (fun t => if sel0 t = true then s0 else 1) g t c)
    (h0 : 0 ≤ s0) (h01 : ∀ t, (if sel0 t = true then s0 else 1) ≤ (if sel1 t = true then s1 else 1))
    {io : ℝ} (hio : treatmentParameter s.mediaPrior l.media c
      * priorDenominator s.mediaPrior (aggregateSpend s.ctx s.mediaSpend s.calibration c) (totalOutcome s)
      = io)
    (hmove : change s.ctx (unitCoef p) (treat s.ctx.data (.media c) s1 sel1 true)
      (treat s.ctx.data (.media c) s0 sel0 true) ≠ 0)
    (hpos : s.normal = true ∨ 0 < io) :
    change s.ctx p (treat s.ctx.data (.media c) s1 sel1 true)
      (treat s.ctx.data (.media c) s0 sel0 true) = io := by
  obtain ⟨h1, -⟩ := posterior_fields hp
  have hx : ∀ g t, 0 ≤ scaleMedia s.ctx s.ctx.media s.ctx.data.media g t c :=
    fun g t => (scaled_nonneg hs g t c).1
  refine honoured hs (p := p) (ch := .media c) hc trivial s1 s0 sel1 sel0 true io
    (l.media.eta c) (fun g t => counterfactualDifferenceMedia s.ctx
      (priorCounterfactual s.mediaPrior s.calibration (scaleMedia s.ctx s.ctx.media s.ctx.data.media))
      (transformedMediaOf s l.media) l.media g t c) (fun g => l.media.dev g c) ?_ ?_ ?_ hmove hpos
  · intro g
    show p.media.beta g c = _
    rw [h1]
    show geoCoefficient _ (posteriorBetaM s l.media c) _ _ = _
    unfold posteriorBetaM
    rw [if_neg hty]
    simp only [hio]
  · intro g t
    rw [value_media hs h1, value_media hs h1]
    exact hd g t
  · intro g t
    rw [hd, sub_nonneg]
    exact mediaAt_mono hl.media hx (fun t => by split_ifs <;> [exact h0; exact zero_le_one]) h01 g t

theorem prior_rf {s : Setup} (hs : Ok s) {l : Draw} (hl : DrawOk l) {p : Params}
    (hp : posterior s l = .ok p) (hty : s.rfPrior ≠ .coefficient) {c : ℕ} (hc : c < s.ctx.rf.n)
    (s1 s0 : ℝ) (sel1 sel0 : ℕ → Bool)
    (hd : ∀ g t, counterfactualDifferenceRf s.ctx
        (priorCounterfactual s.rfPrior s.rfCalibration (scaleMedia s.ctx s.ctx.rf s.ctx.data.reach))
        (transformedRfOf s l.rf) l.rf g t c
      = rfAt s s.ctx.rf l.rf (scaleMedia s.ctx s.ctx.rf s.ctx.data.reach) s.ctx.data.frequency
          (fun t => if sel1 t = true then s1 else 1) g t c
        - rfAt s s.ctx.rf l.rf (scaleMedia s.ctx s.ctx.rf s.ctx.data.reach) s.ctx.data.frequency
          (fun t => if sel0 t = true then s0 else 1) g t c)
    (h0 : 0 ≤ s0) (h01 : ∀ t, (if sel0 t = true then s0 else 1) ≤ (if sel1 t = true then s1 else 1))
    {io : ℝ} (hio : treatmentParameter s.rfPrior l.rf c
      * priorDenominator s.rfPrior (aggregateSpend s.ctx s.rfSpend s.rfCalibration c) (totalOutcome s)
      = io)
    (hmove : change s.ctx (unitCoef p) (treat s.ctx.data (.rf c) s1 sel1 true)
      (treat s.ctx.data (.rf c) s0 sel0 true) ≠ 0)
    (hpos : s.normal = true ∨ 0 < io) :
    change s.ctx p (treat s.ctx.data (.rf c) s1 sel1 true)
      (treat s.ctx.data (.rf c) s0 sel0 true) = io := by
  obtain ⟨-, h1, -⟩ := posterior_fields hp
  have hx : ∀ g t, 0 ≤ scaleMedia s.ctx s.ctx.rf s.ctx.data.reach g t c :=
    fun g t => (scaled_nonneg hs g t c).2.1
  refine honoured hs (p := p) (ch := .rf c) hc trivial s1 s0 sel1 sel0 true io
    (l.rf.eta c) (fun g t => counterfactualDifferenceRf s.ctx
      (priorCounterfactual s.rfPrior s.rfCalibration (scaleMedia s.ctx s.ctx.rf s.ctx.data.reach))
      (transformedRfOf s l.rf) l.rf g t c) (fun g => l.rf.dev g c) ?_ ?_ ?_ hmove hpos
  · intro g
    show p.rf.beta g c = _
    rw [h1]
    show geoCoefficient _ (posteriorBetaRf s l.rf c) _ _ = _
    unfold posteriorBetaRf
    rw [if_neg hty]
    simp only [hio]
  · intro g t
    rw [value_rf hs h1, value_rf hs h1]
    exact hd g t
  · intro g t
    rw [hd, sub_nonneg]
    exact rfAt_mono hl.rf hx (fun g t => hs.frequency g t c)
      (fun t => by split_ifs <;> [exact h0; exact zero_le_one]) h01 g t

/-- **C30 (ROI prior, media).** With an ROI prior, the value drawn for a media channel times its spend in
the calibration period is exactly the expected outcome minus the expected outcome with the channel
switched off during that period, with normal and with log-normal media effects. -/
theorem roi_prior_media {s : Setup} (hs : Ok s) {l : Draw} (hl : DrawOk l) {p : Params}
    (hp : posterior s l = .ok p) (hty : s.mediaPrior = .roi) {c : ℕ} (hc : c < s.ctx.media.n)
    (hsat : s.calibration = none ∨ HasHill s.ctx.media c)
    (hmove : change s.ctx (unitCoef p) s.ctx.data
      (treat s.ctx.data (.media c) 0 (period s.calibration c) true) ≠ 0)
    (hpos : s.normal = true ∨ 0 < l.media.roi c * spendIn s.ctx s.mediaSpend s.calibration c) :
    change s.ctx p s.ctx.data (treat s.ctx.data (.media c) 0 (period s.calibration c) true)
      = l.media.roi c * spendIn s.ctx s.mediaSpend s.calibration c := by
  have hx : ∀ g t, 0 ≤ scaleMedia s.ctx s.ctx.media s.ctx.data.media g t c :=
    fun g t => (scaled_nonneg hs g t c).1
  have key := prior_media hs hl hp (by rw [hty]; decide) hc 1 0 (fun _ => true) (period s.calibration c)
    ?_ le_rfl (fun t => by simp only [if_true]; split_ifs <;> norm_num)
    (io := l.media.roi c * spendIn s.ctx s.mediaSpend s.calibration c)
    (by simp only [hty, treatmentParameter, priorDenominator, aggregateSpend_eq])
  · rw [treat_one] at key
    exact key hmove hpos
  intro g t
  rw [hty, mediaAt_one (by simp)]
  unfold priorCounterfactual counterfactualDifferenceMedia
  cases hcal : s.calibration with
  | none =>
    simp only [Option.map_none]
    rw [mediaAt_zero hl.media (by simp [period]), sub_zero]
    rfl
  | some k =>
    simp only [Option.map_some]
    have hm : mask s.ctx.media c = true := mask_hill (hsat.resolve_left (by rw [hcal]; simp))
    rw [adstockHillMedia_sat hm]
    have e : adstockHillMedia s.ctx s.ctx.media (l.media.params fun _ _ => 0) s.ctx.nMediaTimes s.ctx.nTimes
        (calibrationCounterfactual (scaleMedia s.ctx s.ctx.media s.ctx.data.media) k) g t c
        = mediaAt s s.ctx.media l.media (scaleMedia s.ctx s.ctx.media s.ctx.data.media)
          (fun t => if period (some k) c t = true then 0 else 1) g t c :=
      adstockHillMedia_congr fun u => by
        by_cases h : k u c = true <;> simp [calibrationCounterfactual, period, h]
    rw [e, abs_of_nonneg]
    · rfl
    · rw [sub_nonneg]
      refine le_trans (mediaAt_mono (m' := fun _ => 1) hl.media hx (fun t => by split_ifs <;> norm_num)
        (fun t => by split_ifs <;> norm_num) g t) (le_of_eq ?_)
      rw [mediaAt_one (fun _ => rfl)]
      rfl

/-- **C30 (ROI prior, reach and frequency).** The same for a reach and frequency channel, whose reach is
switched off. -/
theorem roi_prior_rf {s : Setup} (hs : Ok s) {l : Draw} (hl : DrawOk l) {p : Params}
    (hp : posterior s l = .ok p) (hty : s.rfPrior = .roi) {c : ℕ} (hc : c < s.ctx.rf.n)
    (hsat : s.rfCalibration = none ∨ HasHill s.ctx.rf c)
    (hmove : change s.ctx (unitCoef p) s.ctx.data
      (treat s.ctx.data (.rf c) 0 (period s.rfCalibration c) true) ≠ 0)
    (hpos : s.normal = true ∨ 0 < l.rf.roi c * spendIn s.ctx s.rfSpend s.rfCalibration c) :
    change s.ctx p s.ctx.data (treat s.ctx.data (.rf c) 0 (period s.rfCalibration c) true)
      = l.rf.roi c * spendIn s.ctx s.rfSpend s.rfCalibration c := by
  have hx : ∀ g t, 0 ≤ scaleMedia s.ctx s.ctx.rf s.ctx.data.reach g t c :=
    fun g t => (scaled_nonneg hs g t c).2.1
  have key := prior_rf hs hl hp (by rw [hty]; decide) hc 1 0 (fun _ => true) (period s.rfCalibration c)
    ?_ le_rfl (fun t => by simp only [if_true]; split_ifs <;> norm_num)
    (io := l.rf.roi c * spendIn s.ctx s.rfSpend s.rfCalibration c)
    (by simp only [hty, treatmentParameter, priorDenominator, aggregateSpend_eq])
  · rw [treat_one] at key
    exact key hmove hpos
  intro g t
  rw [hty, rfAt_one (by simp)]
  unfold priorCounterfactual counterfactualDifferenceRf
  cases hcal : s.rfCalibration with
  | none =>
    simp only [Option.map_none]
    rw [rfAt_zero hl.rf (by simp [period]), sub_zero]
    rfl
  | some k =>
    simp only [Option.map_some]
    have hm : mask s.ctx.rf c = true := mask_hill (hsat.resolve_left (by rw [hcal]; simp))
    rw [adstockHillRf_sat hm]
    have e : adstockHillRf s.ctx s.ctx.rf (l.rf.params fun _ _ => 0) s.ctx.nMediaTimes s.ctx.nTimes
        (calibrationCounterfactual (scaleMedia s.ctx s.ctx.rf s.ctx.data.reach) k) s.ctx.data.frequency g t c
        = rfAt s s.ctx.rf l.rf (scaleMedia s.ctx s.ctx.rf s.ctx.data.reach) s.ctx.data.frequency
          (fun t => if period (some k) c t = true then 0 else 1) g t c :=
      adstockHillRf_congr (fun u => by
        by_cases h : k u c = true <;> simp [calibrationCounterfactual, period, h]) fun u => rfl
    rw [e, abs_of_nonneg]
    · rfl
    · rw [sub_nonneg]
      refine le_trans (rfAt_mono (m' := fun _ => 1) hl.rf hx (fun g t => hs.frequency g t c)
        (fun t => by split_ifs <;> norm_num) (fun t => by split_ifs <;> norm_num) g t) (le_of_eq ?_)
      rw [rfAt_one (fun _ => rfl)]
      rfl

/-- **C30 (mROI prior, media).** With an mROI prior, raising a media channel by one percent changes the
expected outcome by the value drawn times one percent of its spend. -/
theorem mroi_prior_media {s : Setup} (hs : Ok s) {l : Draw} (hl : DrawOk l) {p : Params}
    (hp : posterior s l = .ok p) (hty : s.mediaPrior = .mroi) {c : ℕ} (hc : c < s.ctx.media.n)
    (hcal : s.calibration = none) (hsat : HasHill s.ctx.media c)
    (hmove : change s.ctx (unitCoef p) (treat s.ctx.data (.media c) 1.01 (fun _ => true) true)
      s.ctx.data ≠ 0)
    (hpos : s.normal = true ∨ 0 < l.media.mroi c * (0.01 * spendIn s.ctx s.mediaSpend none c)) :
    change s.ctx p (treat s.ctx.data (.media c) 1.01 (fun _ => true) true) s.ctx.data
      = l.media.mroi c * (0.01 * spendIn s.ctx s.mediaSpend none c) := by
  have hx : ∀ g t, 0 ≤ scaleMedia s.ctx s.ctx.media s.ctx.data.media g t c :=
    fun g t => (scaled_nonneg hs g t c).1
  have key := prior_media hs hl hp (by rw [hty]; decide) hc 1.01 1 (fun _ => true) (fun _ => true)
    ?_ zero_le_one (fun t => by simp only [if_true]; norm_num)
    (io := l.media.mroi c * (0.01 * spendIn s.ctx s.mediaSpend none c))
    (by simp only [hty, treatmentParameter, priorDenominator, aggregateSpend_eq, hcal, mroiFactor]; ring)
  · rw [treat_one] at key
    exact key hmove hpos
  intro g t
  rw [hty, mediaAt_one (m := fun t => if (fun _ => true) t = true then (1 : ℝ) else 1) (by simp)]
  unfold priorCounterfactual counterfactualDifferenceMedia
  simp only
  rw [adstockHillMedia_sat (mask_hill hsat), abs_sub_comm]
  have e : adstockHillMedia s.ctx s.ctx.media (l.media.params fun _ _ => 0) s.ctx.nMediaTimes s.ctx.nTimes
      (fun g t c => scaleMedia s.ctx s.ctx.media s.ctx.data.media g t c * mroiFactor) g t c
      = mediaAt s s.ctx.media l.media (scaleMedia s.ctx s.ctx.media s.ctx.data.media)
        (fun t => if (fun _ => true) t = true then (1.01 : ℝ) else 1) g t c := by
    simp only [if_true]; rfl
  rw [e, abs_of_nonneg]
  · rfl
  · rw [sub_nonneg]
    refine le_trans (le_of_eq ?_) (mediaAt_mono (m := fun _ => 1) hl.media hx (fun _ => zero_le_one)
      (fun t => by simp only [if_true]; norm_num) g t)
    rw [mediaAt_one (fun _ => rfl)]
    rfl

/-- **C30 (mROI prior, reach and frequency).** -/
theorem mroi_prior_rf {s : Setup} (hs : Ok s) {l : Draw} (hl : DrawOk l) {p : Params}
    (hp : posterior s l = .ok p) (hty : s.rfPrior = .mroi) {c : ℕ} (hc : c < s.ctx.rf.n)
    (hcal : s.rfCalibration = none) (hsat : HasHill s.ctx.rf c)
    (hmove : change s.ctx (unitCoef p) (treat s.ctx.data (.rf c) 1.01 (fun _ => true) true)
      s.ctx.data ≠ 0)
    (hpos : s.normal = true ∨ 0 < l.rf.mroi c * (0.01 * spendIn s.ctx s.rfSpend none c)) :
    change s.ctx p (treat s.ctx.data (.rf c) 1.01 (fun _ => true) true) s.ctx.data
      = l.rf.mroi c * (0.01 * spendIn s.ctx s.rfSpend none c) := by
  have hx : ∀ g t, 0 ≤ scaleMedia s.ctx s.ctx.rf s.ctx.data.reach g t c :=
    fun g t => (scaled_nonneg hs g t c).2.1
  have key := prior_rf hs hl hp (by rw [hty]; decide) hc 1.01 1 (fun _ => true) (fun _ => true)
    ?_ zero_le_one (fun t => by simp only [if_true]; norm_num)
    (io := l.rf.mroi c * (0.01 * spendIn s.ctx s.rfSpend none c))
    (by simp only [hty, treatmentParameter, priorDenominator, aggregateSpend_eq, hcal, mroiFactor]; ring)
  · rw [treat_one] at key
    exact key hmove hpos
  intro g t
  rw [hty, rfAt_one (m := fun t => if (fun _ => true) t = true then (1 : ℝ) else 1) (by simp)]
  unfold priorCounterfactual counterfactualDifferenceRf
  simp only
  rw [adstockHillRf_sat (mask_hill hsat), abs_sub_comm]
  have e : adstockHillRf s.ctx s.ctx.rf (l.rf.params fun _ _ => 0) s.ctx.nMediaTimes s.ctx.nTimes
      (fun g t c => scaleMedia s.ctx s.ctx.rf s.ctx.data.reach g t c * mroiFactor) s.ctx.data.frequency g t c
      = rfAt s s.ctx.rf l.rf (scaleMedia s.ctx s.ctx.rf s.ctx.data.reach) s.ctx.data.frequency
        (fun t => if (fun _ => true) t = true then (1.01 : ℝ) else 1) g t c := by
    simp only [if_true]; rfl
  rw [e, abs_of_nonneg]
  · rfl
  · rw [sub_nonneg]
    refine le_trans (le_of_eq ?_) (rfAt_mono (m := fun _ => 1) hl.rf hx (fun g t => hs.frequency g t c)
      (fun _ => zero_le_one) (fun t => by simp only [if_true]; norm_num) g t)
    rw [rfAt_one (fun _ => rfl)]
    rfl

/-- **C30 (contribution prior, media).** With a contribution prior, switching a channel off changes the
expected outcome by the fraction drawn of the outcome that was observed. -/
theorem contribution_prior_media {s : Setup} (hs : Ok s) {l : Draw} (hl : DrawOk l) {p : Params}
    (hp : posterior s l = .ok p) (hty : s.mediaPrior = .contribution) {c : ℕ} (hc : c < s.ctx.media.n)
    (hmove : change s.ctx (unitCoef p) s.ctx.data
      (treat s.ctx.data (.media c) 0 (fun _ => true) true) ≠ 0)
    (hpos : s.normal = true ∨ 0 < l.media.contribution c * observedOutcome s) :
    change s.ctx p s.ctx.data (treat s.ctx.data (.media c) 0 (fun _ => true) true)
      = l.media.contribution c * observedOutcome s := by
  have key := prior_media hs hl hp (by rw [hty]; decide) hc 1 0 (fun _ => true) (fun _ => true)
    ?_ le_rfl (fun t => by simp) (io := l.media.contribution c * observedOutcome s)
    (by simp only [hty, treatmentParameter, priorDenominator, totalOutcome_eq])
  · rw [treat_one] at key
    exact key hmove hpos
  intro g t
  rw [hty, mediaAt_one (by simp), mediaAt_zero hl.media (by simp), sub_zero]
  rfl

/-- **C30 (contribution prior, reach and frequency).** -/
theorem contribution_prior_rf {s : Setup} (hs : Ok s) {l : Draw} (hl : DrawOk l) {p : Params}
    (hp : posterior s l = .ok p) (hty : s.rfPrior = .contribution) {c : ℕ} (hc : c < s.ctx.rf.n)
    (hmove : change s.ctx (unitCoef p) s.ctx.data
      (treat s.ctx.data (.rf c) 0 (fun _ => true) true) ≠ 0)
    (hpos : s.normal = true ∨ 0 < l.rf.contribution c * observedOutcome s) :
    change s.ctx p s.ctx.data (treat s.ctx.data (.rf c) 0 (fun _ => true) true)
      = l.rf.contribution c * observedOutcome s := by
  have key := prior_rf hs hl hp (by rw [hty]; decide) hc 1 0 (fun _ => true) (fun _ => true)
    ?_ le_rfl (fun t => by simp) (io := l.rf.contribution c * observedOutcome s)
    (by simp only [hty, treatmentParameter, priorDenominator, totalOutcome_eq])
  · rw [treat_one] at key
    exact key hmove hpos
  intro g t
  rw [hty, rfAt_one (by simp), rfAt_zero hl.rf (by simp), sub_zero]
  rfl

/-- **C30 (contribution prior, organic media).** -/
theorem contribution_prior_organicMedia {s : Setup} (hs : Ok s) {l : Draw} (hl : DrawOk l) {p : Params}
    (hp : posterior s l = .ok p) (hty : s.organicMediaPrior = .contribution) {c : ℕ}
    (hc : c < s.ctx.organicMedia.n)
    (hmove : change s.ctx (unitCoef p) s.ctx.data
      (treat s.ctx.data (.organicMedia c) 0 (fun _ => true) true) ≠ 0)
    (hpos : s.normal = true ∨ 0 < l.organicMedia.contribution c * observedOutcome s) :
    change s.ctx p s.ctx.data (treat s.ctx.data (.organicMedia c) 0 (fun _ => true) true)
      = l.organicMedia.contribution c * observedOutcome s := by
  obtain ⟨-, -, ⟨b, h1, hb⟩, -⟩ := posterior_fields hp
  have hx : ∀ g t, 0 ≤ scaleMedia s.ctx s.ctx.organicMedia s.ctx.data.organicMedia g t c :=
    fun g t => (scaled_nonneg hs g t c).2.2.1
  have hb := hb (by omega)
  unfold posteriorBetaOm at hb
  rw [hty] at hb
  simp only [Except.ok.injEq] at hb
  have hval : ∀ g t, transformedOrganicMediaOf s l.organicMedia g t c
      = value s.ctx p (scaleData s.ctx (treat s.ctx.data (.organicMedia c) 1 (fun _ => true) true))
          s.ctx.nTimes (.organicMedia c) g t
        - value s.ctx p (scaleData s.ctx (treat s.ctx.data (.organicMedia c) 0 (fun _ => true) true))
          s.ctx.nTimes (.organicMedia c) g t := by
    intro g t
    rw [value_organicMedia hs h1, value_organicMedia hs h1]
    have e0 := mediaAt_zero (s := s) (k := s.ctx.organicMedia)
      (x := scaleMedia s.ctx s.ctx.organicMedia s.ctx.data.organicMedia)
      (m := fun t => if (fun _ => true) t = true then 0 else 1) hl.organicMedia (by simp) g t c
    have e1 := mediaAt_one (s := s) (k := s.ctx.organicMedia) (l := l.organicMedia)
      (x := scaleMedia s.ctx s.ctx.organicMedia s.ctx.data.organicMedia)
      (m := fun t => if (fun _ => true) t = true then 1 else 1) (by simp) g t c
    exact ((congrArg₂ (· - ·) e1 e0).trans (sub_zero _)).symm
  have key := honoured hs (p := p) (ch := .organicMedia c) hc trivial 1 0 (fun _ => true) (fun _ => true)
    true (l.organicMedia.contribution c * observedOutcome s)
    (l.organicMedia.eta c) (fun g t => transformedOrganicMediaOf s l.organicMedia g t c)
    (fun g => l.organicMedia.dev g c) ?_ hval ?_
  · rw [treat_one] at key
    exact key hmove hpos
  · intro g
    show p.organicMedia.beta g c = _
    rw [h1, ← hb, ← totalOutcome_eq]
    rfl
  · intro g t
    have h := mediaAt_mono (s := s) (k := s.ctx.organicMedia) hl.organicMedia hx (m := fun _ => 0)
      (m' := fun _ => 1) (fun _ => le_rfl) (fun _ => zero_le_one) g t
    rwa [mediaAt_zero hl.organicMedia (fun _ => rfl), mediaAt_one (fun _ => rfl)] at h

/-- **C30 (contribution prior, organic reach and frequency).** -/
theorem contribution_prior_organicRf {s : Setup} (hs : Ok s) {l : Draw} (hl : DrawOk l) {p : Params}
    (hp : posterior s l = .ok p) (hty : s.organicRfPrior = .contribution) {c : ℕ}
    (hc : c < s.ctx.organicRf.n)
    (hmove : change s.ctx (unitCoef p) s.ctx.data
      (treat s.ctx.data (.organicRf c) 0 (fun _ => true) true) ≠ 0)
    (hpos : s.normal = true ∨ 0 < l.organicRf.contribution c * observedOutcome s) :
    change s.ctx p s.ctx.data (treat s.ctx.data (.organicRf c) 0 (fun _ => true) true)
      = l.organicRf.contribution c * observedOutcome s := by
  obtain ⟨-, -, -, ⟨b, h1, hb⟩, -⟩ := posterior_fields hp
  have hx : ∀ g t, 0 ≤ scaleMedia s.ctx s.ctx.organicRf s.ctx.data.organicReach g t c :=
    fun g t => (scaled_nonneg hs g t c).2.2.2
  have hb := hb (by omega)
  unfold posteriorBetaOrf at hb
  rw [hty] at hb
  simp only [Except.ok.injEq] at hb
  have hval : ∀ g t, transformedOrganicRfOf s l.organicRf g t c
      = value s.ctx p (scaleData s.ctx (treat s.ctx.data (.organicRf c) 1 (fun _ => true) true))
          s.ctx.nTimes (.organicRf c) g t
        - value s.ctx p (scaleData s.ctx (treat s.ctx.data (.organicRf c) 0 (fun _ => true) true))
          s.ctx.nTimes (.organicRf c) g t := by
    intro g t
    rw [value_organicRf hs h1, value_organicRf hs h1]
    have e0 := rfAt_zero (s := s) (k := s.ctx.organicRf) (f := s.ctx.data.organicFrequency)
      (x := scaleMedia s.ctx s.ctx.organicRf s.ctx.data.organicReach)
      (m := fun t => if (fun _ => true) t = true then 0 else 1) hl.organicRf (by simp) g t c
    have e1 := rfAt_one (s := s) (k := s.ctx.organicRf) (l := l.organicRf)
      (f := s.ctx.data.organicFrequency)
      (x := scaleMedia s.ctx s.ctx.organicRf s.ctx.data.organicReach)
      (m := fun t => if (fun _ => true) t = true then 1 else 1) (by simp) g t c
    exact ((congrArg₂ (· - ·) e1 e0).trans (sub_zero _)).symm
  have key := honoured hs (p := p) (ch := .organicRf c) hc trivial 1 0 (fun _ => true) (fun _ => true)
    true (l.organicRf.contribution c * observedOutcome s)
    (l.organicRf.eta c) (fun g t => transformedOrganicRfOf s l.organicRf g t c)
    (fun g => l.organicRf.dev g c) ?_ hval ?_
  · rw [treat_one] at key
    exact key hmove hpos
  · intro g
    show p.organicRf.beta g c = _
    rw [h1, ← hb, ← totalOutcome_eq]
    rfl
  · intro g t
    have h := rfAt_mono (s := s) (k := s.ctx.organicRf) hl.organicRf hx
      (fun g t => hs.organicFrequency g t c) (m := fun _ => 0)
      (m' := fun _ => 1) (fun _ => le_rfl) (fun _ => zero_le_one) g t
    rwa [rfAt_zero hl.organicRf (fun _ => rfl), rfAt_one (fun _ => rfl)] at h

/-- The change of the expected outcome when a non-media treatment goes to its baseline. -/
theorem change_baseline {s : Setup} (hs : Ok s) (p : Params) {c : ℕ} (hc : c < s.ctx.nNonMedia)
    (b : ℕ → ℝ) :
    change s.ctx p s.ctx.data (atBaseline s.ctx s.ctx.data c b)
      = ∑ g ∈ range s.ctx.nGeos, p.gammaN g c * outcomeOverBeta s.ctx (fun g t =>
          scaleCs s.ctx.nonMediaT s.ctx.data.nonMedia true g t c - baselineNormalized s.ctx b c) g := by
  unfold change outcomeOverBeta
  apply Finset.sum_congr rfl
  intro g _
  rw [Finset.mul_sum]
  apply Finset.sum_congr rfl
  intro t _
  rw [← Mmm.Props.incremental_nonmedia_is_difference hs.wf p s.ctx.data hc b 0 1 (fun _ => true) true true
    false g t, incrementalOutcome_nonMedia hs.wf]
  unfold unit revenue useKpi
  rw [hs.kpiPop]
  cases s.ctx.data.revenuePerKpi <;> simp <;> ring

/-- The baseline of the samplers is the one of the analyzer, for channels without population scaling. -/
theorem samplerBaseline_eq {s : Setup} (hs : Ok s) {c : ℕ}
    (hpop : ∀ g, nonMediaFactor s.ctx g c = 1) (g t : ℕ) :
    samplerBaseline s g t c = baselineNormalized s.ctx s.nonMediaBaseline c :=
  csForward_baseline hs.wf s.nonMediaBaseline (fun _ _ c => s.nonMediaBaseline c) g t c (by simp [hpop])

/-- **C30 (contribution prior, non-media).** With a contribution prior, moving a non-media treatment that is
not scaled by population to its baseline changes the expected outcome by the fraction drawn of the
outcome that was observed. -/
theorem contribution_prior_nonMedia {s : Setup} (hs : Ok s) {l : Draw} {p : Params}
    (hp : posterior s l = .ok p) (hty : s.nonMediaPrior = .contribution) {c : ℕ}
    (hc : c < s.ctx.nNonMedia) (hpop : ∀ g, nonMediaFactor s.ctx g c = 1)
    (hmove : change s.ctx (unitCoef p) s.ctx.data
      (atBaseline s.ctx s.ctx.data c s.nonMediaBaseline) ≠ 0) :
    change s.ctx p s.ctx.data (atBaseline s.ctx s.ctx.data c s.nonMediaBaseline)
      = l.contributionN c * observedOutcome s := by
  obtain ⟨-, -, -, -, ⟨b, h1, hb⟩⟩ := posterior_fields hp
  have hb := hb (by omega)
  unfold posteriorGammaN at hb
  rw [hty] at hb
  simp only [Except.ok.injEq] at hb
  rw [change_baseline hs _ hc] at hmove ⊢
  have e : (fun g t => scaleCs s.ctx.nonMediaT s.ctx.data.nonMedia true g t c - samplerBaseline s g t c)
      = fun g t => scaleCs s.ctx.nonMediaT s.ctx.data.nonMedia true g t c
        - baselineNormalized s.ctx s.nonMediaBaseline c := by
    funext g t; rw [samplerBaseline_eq hs hpop]
  have hone : ∀ g, (unitCoef p).gammaN g c = 1 := fun g => rfl
  simp only [hone, one_mul] at hmove
  have key := geo_sum s true (l.contributionN c * totalOutcome s) (l.xiN c) _ (fun g => l.gammaGnDev g c)
    (fun _ _ => .inl rfl) hmove (.inl rfl)
  rw [← totalOutcome_eq, ← key, h1, ← hb]
  simp only [e]
  rfl

/-! ### C30: what the analyzer reports -/

theorem sum_list_range (n : ℕ) (f : ℕ → ℝ) : ((List.range n).map f).sum = ∑ i ∈ range n, f i := by
  induction n with
  | zero => rfl
  | succ n ih => rw [List.range_succ, Finset.sum_range_succ, ← ih]; simp

theorem total (nG nT : ℕ) (x : ℕ → ℕ → ℝ) :
    Selection.filterAggregate x nG nT none none true true
      = [[∑ g ∈ range nG, ∑ t ∈ range nT, x g t]] := by
  rw [Selection.Props.aggregate_all]
  simp only [Selection.axis, sum_list_range]

/-- The ROI reported for a paid channel without any selection. -/
theorem roi_total {s : Setup} (hs : Ok s) {p : Params} (hp : SlopesPos s.ctx p) {ch : Chan}
    (hv : ch.Valid s.ctx) (hpaid : Metrics.Spec.Paid ch) (media rf : Metrics.SpendDims) (x : T3) :
    Metrics.roi s.ctx media rf false false p s.ctx.data (.cells x) none none true false (ch.pos s.ctx)
      = .ok [[change s.ctx p s.ctx.data (treat s.ctx.data ch 0 (fun _ => true) true)
          / ∑ g ∈ range s.ctx.nGeos, ∑ t ∈ range s.ctx.nTimes, x g t (ch.pos s.ctx)]] := by
  have hg : Metrics.validateGranularity media rf false false true = .ok () := by
    simp [Metrics.validateGranularity]
  unfold Metrics.roi
  rw [hg]
  simp only [Metrics.ratio, total, List.zipWith_cons_cons, List.zipWith_nil_left]
  have e : ∀ g t, incrementalOutcome s.ctx p s.ctx.data (fun _ => 0) 0 1 (fun _ => true) true true false g t
        (ch.pos s.ctx)
      = expectedOutcome s.ctx p s.ctx.data true false g t
        - expectedOutcome s.ctx p (treat s.ctx.data ch 0 (fun _ => true) true) true false g t := by
    intro g t
    rw [Mmm.Props.incremental_is_difference hs.wf hp s.ctx.data hs.wf.times hv
      (by rintro c rfl; exact hpaid), treat_one]
  simp only [e]
  rfl

/-- **C30 (the reported ROI of a media channel is the prior draw).** With an ROI prior and no calibration
period, `Analyzer.roi` of the whole data gives, for every draw, exactly the value drawn from the prior
of the channel. -/
theorem reported_roi_is_prior_draw_media {s : Setup} (hs : Ok s) {l : Draw} (hl : DrawOk l) {p : Params}
    (hp : posterior s l = .ok p) (hty : s.mediaPrior = .roi) {c : ℕ} (hc : c < s.ctx.media.n)
    (hcal : s.calibration = none)
    (hmove : change s.ctx (unitCoef p) s.ctx.data
      (treat s.ctx.data (.media c) 0 (fun _ => true) true) ≠ 0)
    (hpos : s.normal = true ∨ 0 < l.media.roi c * spendIn s.ctx s.mediaSpend none c)
    (hspend : spendIn s.ctx s.mediaSpend none c ≠ 0) (media rf : Metrics.SpendDims) :
    Metrics.roi s.ctx media rf false false p s.ctx.data
      (.cells (concat s.ctx.media.n s.mediaSpend s.rfSpend)) none none true false
      ((Chan.media c).pos s.ctx) = .ok [[l.media.roi c]] := by
  rw [roi_total hs (slopes hp hl) (ch := .media c) hc trivial]
  have h := roi_prior_media hs hl hp hty hc (.inl hcal) (by rw [hcal]; exact hmove) (by rw [hcal]; exact hpos)
  rw [hcal] at h
  rw [show (fun _ => true : ℕ → Bool) = period none c from rfl, h]
  have e : ∑ g ∈ range s.ctx.nGeos, ∑ t ∈ range s.ctx.nTimes,
      concat s.ctx.media.n s.mediaSpend s.rfSpend g t ((Chan.media c).pos s.ctx)
      = spendIn s.ctx s.mediaSpend none c := by
    simp [spendIn, period, Chan.pos, concat, hc]
  rw [e, mul_div_assoc, div_self hspend, mul_one]

/-- **C30 (the reported ROI of a reach and frequency channel is the prior draw).** -/
theorem reported_roi_is_prior_draw_rf {s : Setup} (hs : Ok s) {l : Draw} (hl : DrawOk l) {p : Params}
    (hp : posterior s l = .ok p) (hty : s.rfPrior = .roi) {c : ℕ} (hc : c < s.ctx.rf.n)
    (hcal : s.rfCalibration = none)
    (hmove : change s.ctx (unitCoef p) s.ctx.data
      (treat s.ctx.data (.rf c) 0 (fun _ => true) true) ≠ 0)
    (hpos : s.normal = true ∨ 0 < l.rf.roi c * spendIn s.ctx s.rfSpend none c)
    (hspend : spendIn s.ctx s.rfSpend none c ≠ 0) (media rf : Metrics.SpendDims) :
    Metrics.roi s.ctx media rf false false p s.ctx.data
      (.cells (concat s.ctx.media.n s.mediaSpend s.rfSpend)) none none true false
      ((Chan.rf c).pos s.ctx) = .ok [[l.rf.roi c]] := by
  rw [roi_total hs (slopes hp hl) (ch := .rf c) hc trivial]
  have h := roi_prior_rf hs hl hp hty hc (.inl hcal) (by rw [hcal]; exact hmove) (by rw [hcal]; exact hpos)
  rw [hcal] at h
  rw [show (fun _ => true : ℕ → Bool) = period none c from rfl, h]
  have e : ∑ g ∈ range s.ctx.nGeos, ∑ t ∈ range s.ctx.nTimes,
      concat s.ctx.media.n s.mediaSpend s.rfSpend g t ((Chan.rf c).pos s.ctx)
      = spendIn s.ctx s.rfSpend none c := by
    simp [spendIn, period, Chan.pos, concat]
  rw [e, mul_div_assoc, div_self hspend, mul_one]

/-- The marginal ROI, for one percent, reported for a paid channel without any selection. -/
theorem mroi_total {s : Setup} (hs : Ok s) {p : Params} (hp : SlopesPos s.ctx p) {ch : Chan}
    (hv : ch.Valid s.ctx) (hpaid : Metrics.Spec.Paid ch) (media rf : Metrics.SpendDims) (x : T3) :
    Metrics.marginalRoi s.ctx media rf false false p s.ctx.data (.cells x) none none true true false 0.01
      (ch.pos s.ctx)
      = .ok [[change s.ctx p (treat s.ctx.data ch 1.01 (fun _ => true) true) s.ctx.data
          / (0.01 * ∑ g ∈ range s.ctx.nGeos, ∑ t ∈ range s.ctx.nTimes, x g t (ch.pos s.ctx))]] := by
  have hg : Metrics.validateGranularity media rf false false true = .ok () := by
    simp [Metrics.validateGranularity]
  unfold Metrics.marginalRoi
  rw [hg]
  simp only [Metrics.Spend.scale, Metrics.ratio, total, List.zipWith_cons_cons, List.zipWith_nil_left]
  have e : ∀ g t, incrementalOutcome s.ctx p s.ctx.data (fun _ => 0) 1 (1 + 0.01) (fun _ => true) true true
        (useKpi s.ctx false) g t (ch.pos s.ctx)
      = expectedOutcome s.ctx p (treat s.ctx.data ch 1.01 (fun _ => true) true) true false g t
        - expectedOutcome s.ctx p s.ctx.data true false g t := by
    intro g t
    rw [Mmm.Props.incremental_is_difference hs.wf hp s.ctx.data hs.wf.times hv
      (by rintro c rfl; exact hpaid), treat_one, show (1 + 0.01 : ℝ) = 1.01 by norm_num]
    simp only [expectedOutcome, useKpi_idem hs.wf]
  simp only [e, ← Finset.sum_mul, mul_comm (0.01 : ℝ)]
  rfl

/-- **C30 (the reported marginal ROI of a media channel is the prior draw).** With an mROI prior,
`Analyzer.marginal_roi` of the whole data for an increase of one percent gives, for every draw, exactly
the value drawn. -/
theorem reported_mroi_is_prior_draw_media {s : Setup} (hs : Ok s) {l : Draw} (hl : DrawOk l) {p : Params}
    (hp : posterior s l = .ok p) (hty : s.mediaPrior = .mroi) {c : ℕ} (hc : c < s.ctx.media.n)
    (hcal : s.calibration = none) (hsat : HasHill s.ctx.media c)
    (hmove : change s.ctx (unitCoef p) (treat s.ctx.data (.media c) 1.01 (fun _ => true) true)
      s.ctx.data ≠ 0)
    (hpos : s.normal = true ∨ 0 < l.media.mroi c * (0.01 * spendIn s.ctx s.mediaSpend none c))
    (hspend : spendIn s.ctx s.mediaSpend none c ≠ 0) (media rf : Metrics.SpendDims) :
    Metrics.marginalRoi s.ctx media rf false false p s.ctx.data
      (.cells (concat s.ctx.media.n s.mediaSpend s.rfSpend)) none none true true false 0.01
      ((Chan.media c).pos s.ctx) = .ok [[l.media.mroi c]] := by
  rw [mroi_total hs (slopes hp hl) (ch := .media c) hc trivial,
    mroi_prior_media hs hl hp hty hc hcal hsat hmove hpos]
  have e : ∑ g ∈ range s.ctx.nGeos, ∑ t ∈ range s.ctx.nTimes,
      concat s.ctx.media.n s.mediaSpend s.rfSpend g t ((Chan.media c).pos s.ctx)
      = spendIn s.ctx s.mediaSpend none c := by
    simp [spendIn, period, Chan.pos, concat, hc]
  rw [e, mul_div_assoc, div_self (mul_ne_zero (by norm_num) hspend), mul_one]

/-- **C30 (the reported marginal ROI of a reach and frequency channel is the prior draw).** Here reach
grows by one percent. -/
theorem reported_mroi_is_prior_draw_rf {s : Setup} (hs : Ok s) {l : Draw} (hl : DrawOk l) {p : Params}
    (hp : posterior s l = .ok p) (hty : s.rfPrior = .mroi) {c : ℕ} (hc : c < s.ctx.rf.n)
    (hcal : s.rfCalibration = none) (hsat : HasHill s.ctx.rf c)
    (hmove : change s.ctx (unitCoef p) (treat s.ctx.data (.rf c) 1.01 (fun _ => true) true)
      s.ctx.data ≠ 0)
    (hpos : s.normal = true ∨ 0 < l.rf.mroi c * (0.01 * spendIn s.ctx s.rfSpend none c))
    (hspend : spendIn s.ctx s.rfSpend none c ≠ 0) (media rf : Metrics.SpendDims) :
    Metrics.marginalRoi s.ctx media rf false false p s.ctx.data
      (.cells (concat s.ctx.media.n s.mediaSpend s.rfSpend)) none none true true false 0.01
      ((Chan.rf c).pos s.ctx) = .ok [[l.rf.mroi c]] := by
  rw [mroi_total hs (slopes hp hl) (ch := .rf c) hc trivial,
    mroi_prior_rf hs hl hp hty hc hcal hsat hmove hpos]
  have e : ∑ g ∈ range s.ctx.nGeos, ∑ t ∈ range s.ctx.nTimes,
      concat s.ctx.media.n s.mediaSpend s.rfSpend g t ((Chan.rf c).pos s.ctx)
      = spendIn s.ctx s.rfSpend none c := by
    simp [spendIn, period, Chan.pos, concat]
  rw [e, mul_div_assoc, div_self (mul_ne_zero (by norm_num) hspend), mul_one]

/-! ### C31 -/

/-- **C31.** From equal draws the prior sampler and the posterior sampler derive the same parameters: the
same coefficients of every treatment in every geo, the same time effects and geo effects, or the same
rejection, for all prior types - if organic media and organic reach and frequency have the same
prior type, or there is no organic reach and frequency channel. -/
theorem prior_eq_posterior (s : Setup) (l : Draw)
    (h : s.organicMediaPrior = s.organicRfPrior ∨ s.ctx.organicRf.n = 0) :
    prior s l = posterior s l := by
  have h1 : priorBetaM s l.media = posteriorBetaM s l.media := by
    funext c
    unfold priorBetaM posteriorBetaM treatmentParameter
    cases s.mediaPrior <;> rfl
  have h2 : priorBetaRf s l.rf = posteriorBetaRf s l.rf := by
    funext c
    unfold priorBetaRf posteriorBetaRf treatmentParameter
    cases s.rfPrior <;> rfl
  have h3 : priorBetaOm s l.organicMedia = posteriorBetaOm s l.organicMedia := by
    unfold priorBetaOm posteriorBetaOm; rfl
  have h4 : present s.ctx.organicRf.n (fun _ => 0) (priorBetaOrf s l.organicRf)
      = present s.ctx.organicRf.n (fun _ => 0) (posteriorBetaOrf s l.organicRf) := by
    rcases h with h | h
    · congr 1
      unfold priorBetaOrf posteriorBetaOrf
      rw [h]
      rfl
    · simp [present, h]
  have h5 : priorGammaN s l = posteriorGammaN s l := by
    unfold priorGammaN posteriorGammaN; rfl
  unfold prior posterior
  rw [h1, h2, h3, h4, h5]
  rfl

/-- **C31 (what is wrong in the code).** The prior sampler does not read the prior type of organic reach and
frequency at all. -/
theorem prior_ignores_organic_rf_prior_type (s : Setup) (l : Draw) (ty : PriorType) :
    prior { s with organicRfPrior := ty } l = prior s l := rfl

/-- **C31 (baseline).** For channels without population scaling the samplers and the analysis use the same
baseline of a non-media treatment. -/
theorem baselines_agree {s : Setup} (hs : Ok s) {c : ℕ} (hpop : ∀ g, nonMediaFactor s.ctx g c = 1)
    (g t : ℕ) : samplerBaseline s g t c = baselineNormalized s.ctx s.nonMediaBaseline c :=
  samplerBaseline_eq hs hpop g t

/-- **C31 (the baseline is population-scaled twice).** For a channel scaled by population the samplers
divide the baseline, which already is per capita, by the population once more: unless the population of
the geo is one, the baseline is zero or the treatment is constant, they use another baseline than the
analysis. -/
theorem baselines_differ {s : Setup} (hs : Ok s) {c : ℕ} {f : ℕ → Bool}
    (hf : s.ctx.nonMediaPopScaling = some f) (hfc : f c = true) {g : ℕ} (hg : s.ctx.population g ≠ 1)
    (hb : s.nonMediaBaseline c ≠ 0) (hstd : (s.ctx.nonMediaT c).std ≠ 0) (t : ℕ) :
    samplerBaseline s g t c ≠ baselineNormalized s.ctx s.nonMediaBaseline c := by
  unfold samplerBaseline baselineNormalized scaleCs csForward divideNoNan
  simp only [hs.wf.factors c, hf, Option.map_some, if_true, hfc, Bool.false_eq_true, if_false, if_pos hstd]
  intro h
  have hp := hs.wf.pop g
  rw [div_left_inj' hstd, sub_left_inj, div_eq_iff hp.ne'] at h
  exact hg (mul_left_cancel₀ hb (by linarith))

/-! ### C32 -/

theorem sqrt_two_pi_pos : 0 < Real.sqrt (2 * Real.pi) := Real.sqrt_pos.2 (by positivity)

theorem normalLogProb_eq {mean sd x : ℝ} (h : 0 < sd) : normalLogProb mean sd x = logGauss mean sd x := by
  have hp := sqrt_two_pi_pos
  unfold normalLogProb logGauss
  rw [Real.log_mul (by positivity) (Real.exp_pos _).ne', Real.log_exp, one_div, Real.log_inv,
    Real.log_mul h.ne' hp.ne', div_pow]
  field_simp
  ring

theorem normalLogProb_held : normalLogProb 0 (1 / Real.sqrt (2 * Real.pi)) 0 = 0 := by
  unfold normalLogProb
  rw [one_div, Real.log_inv]
  simp

open Classical in
/-- **C32.** The log density of the KPI given the parameters is the sum of the Gaussian log densities of the
cells that are not held out. -/
theorem likelihood_of_observed (s : Setup) (kpi pred : Panel) (sigma : ℕ → ℝ)
    (hsig : ∀ g < s.ctx.nGeos, 0 < sigma g) :
    logLikelihood s kpi pred sigma
      = ∑ g ∈ range s.ctx.nGeos, ∑ t ∈ range s.ctx.nTimes with Observed s.holdout g t,
          logGauss (pred g t) (sigma g) (kpi g t) := by
  unfold logLikelihood
  cases hh : s.holdout with
  | none =>
    simp only
    apply Finset.sum_congr rfl
    intro g hg
    rw [Finset.filter_true_of_mem (by intro t _ h e; cases e)]
    exact Finset.sum_congr rfl fun t _ => normalLogProb_eq (hsig g (mem_range.1 hg))
  | some h =>
    simp only
    apply Finset.sum_congr rfl
    intro g hg
    rw [Finset.sum_filter]
    apply Finset.sum_congr rfl
    intro t _
    cases hc : h g t with
    | true =>
      have hn : ¬ Observed (some h) g t := by intro ho; rw [ho h rfl] at hc; cases hc
      simp only [if_true, if_neg hn]
      exact normalLogProb_held
    | false =>
      have hn : Observed (some h) g t := by intro h' e; cases e; exact hc
      simp only [Bool.false_eq_true, if_false, if_pos hn]
      exact normalLogProb_eq (hsig g (mem_range.1 hg))

/-- **C32 (independence).** The log density given the parameters does not depend on the transformed KPI, nor
on the prediction, at held-out cells. -/
theorem held_out_kpi_irrelevant (s : Setup) (kpi kpi' pred pred' : Panel) (sigma : ℕ → ℝ)
    (hk : ∀ g t, Observed s.holdout g t → kpi g t = kpi' g t ∧ pred g t = pred' g t) :
    logLikelihood s kpi pred sigma = logLikelihood s kpi' pred' sigma := by
  unfold logLikelihood
  cases hh : s.holdout with
  | none =>
    simp only
    refine Finset.sum_congr rfl fun g _ => Finset.sum_congr rfl fun t _ => ?_
    obtain ⟨h1, h2⟩ := hk g t (by intro h e; rw [hh] at e; cases e)
    rw [h1, h2]
  | some h =>
    simp only
    refine Finset.sum_congr rfl fun g _ => Finset.sum_congr rfl fun t _ => ?_
    cases hc : h g t with
    | true => simp
    | false =>
      obtain ⟨h1, h2⟩ := hk g t (by intro h' e; rw [hh] at e; cases e; exact hc)
      rw [h1, h2]

/-! ### C33 -/

/-- **C33.** The geo effects are one per geo, zero at the baseline geo, and the sampled ones, in order, at
the other geos; in both samplers. -/
theorem tau_inserted (excl : List ℝ) (i : ℕ) (hi : i ≤ excl.length) :
    (computeTauG excl i).length = excl.length + 1 ∧ (computeTauG excl i)[i]? = some 0 ∧
    (computeTauG excl i).eraseIdx i = excl ∧ getTauG excl i = computeTauG excl i := by
  have hl : (excl.take i).length = i := by rw [List.length_take]; omega
  refine ⟨?_, ?_, ?_, rfl⟩
  · simp [computeTauG]; omega
  · unfold computeTauG
    rw [List.append_assoc, List.getElem?_append_right (by omega), hl]
    simp
  · unfold computeTauG
    rw [List.append_assoc, List.eraseIdx_append_of_length_le (by omega), hl]
    simp

theorem argmax_spec (l : List ℚ) (hl : l ≠ []) :
    ∃ a, l[argmax l]? = some a ∧ (∀ b ∈ l, b ≤ a) ∧ ∀ j < argmax l, ∀ b, l[j]? = some b → b < a := by
  induction l with
  | nil => exact absurd rfl hl
  | cons x l ih =>
    rcases l with _ | ⟨y, l⟩
    · exact ⟨x, by simp [argmax], by simp, by simp [argmax]⟩
    obtain ⟨a, h1, h2, h3⟩ := ih (by simp)
    have hd : (y :: l).getD (argmax (y :: l)) x = a := by rw [List.getD_eq_getElem?_getD, h1]; rfl
    rw [argmax, hd]
    split_ifs with h
    · refine ⟨a, by simpa using h1, ?_, ?_⟩
      · intro b hb
        rcases List.mem_cons.1 hb with rfl | hb
        · exact h.le
        · exact h2 b hb
      · intro j hj b hb
        cases j with
        | zero => simp at hb; rw [← hb]; exact h
        | succ j => exact h3 j (by omega) b (by simpa using hb)
    · refine ⟨x, rfl, ?_, by simp⟩
      intro b hb
      rcases List.mem_cons.1 hb with rfl | hb
      · exact le_rfl
      · exact (h2 b hb).trans (not_lt.1 h)

/-- **C33 (which geo).** The baseline geo is the one with the given index or the given name, or the first
with the largest population; an index that is out of range, and a name that does not occur, are
rejected.  It always exists. -/
theorem baseline_geo (geos : List String) (population : List ℚ) (hlen : population.length = geos.length)
    (hne : geos ≠ []) (b : BaselineGeo) :
    match b, baselineGeoIdx geos population b with
    | .index i, .ok k => (k : ℤ) = i ∧ k < geos.length
    | .index i, .error _ => i < 0 ∨ (geos.length : ℤ) ≤ i
    | .name s, .ok k => geos[k]? = some s
    | .name s, .error _ => s ∉ geos
    | .default, .ok k => k < geos.length ∧ ∃ a, population[k]? = some a ∧ (∀ b ∈ population, b ≤ a) ∧
        ∀ j < k, ∀ b, population[j]? = some b → b < a
    | .default, .error _ => False := by
  cases b with
  | index i =>
    simp only [baselineGeoIdx]
    split_ifs with h
    · exact h
    · simp only; omega
  | name s =>
    simp only [baselineGeoIdx]
    cases h : geos.findIdx? (· == s) with
    | none =>
      simp only
      rw [List.findIdx?_eq_none_iff] at h
      intro hs
      simpa using h s hs
    | some k =>
      simp only
      rw [List.findIdx?_eq_some_iff_getElem] at h
      obtain ⟨hk, h, _⟩ := h
      rw [List.getElem?_eq_getElem hk]
      simpa using h
  | default =>
    simp only [baselineGeoIdx]
    have hp : population ≠ [] := by
      intro h; rw [h] at hlen; simp at hlen; exact hne (List.length_eq_zero_iff.1 hlen.symm)
    have h := argmax_spec population hp
    refine ⟨?_, h⟩
    obtain ⟨a, h1, _⟩ := h
    rw [← hlen]
    exact (List.getElem?_eq_some_iff.1 h1).1

/-! ### The mean of the likelihood -/

/-- **C49.** The mean of the likelihood is, on the scale of the model, the expected outcome that the
analyzer reports for the data of the model and the parameters of the draw. -/
theorem likelihood_mean_is_expected_outcome {s : Setup} (hs : Ok s) {l : Draw} {p : Params}
    (hp : posterior s l = .ok p) (uk : Bool) :
    yPred s l p = expectedOutcome s.ctx p s.ctx.data false uk := by
  obtain ⟨h1, h2, ⟨_, h3, _⟩, ⟨_, h4, _⟩, _⟩ := posterior_fields hp
  funext g t
  unfold yPred expectedOutcome kpiMeans transformedMedia
  simp only [Bool.false_eq_true, if_false, h1, h2, h3, h4]
  simp only [scaleData, hs.wf.times]
  rfl

/-! ### Concrete cases -/

/-- One geo with population 2, one time, one channel of each kind with one unit per capita; two units of
the non-media treatment per capita, baseline one. -/
noncomputable def tiny (sat : Sat) (paid om orf : PriorType) (normal : Bool) : Setup where
  ctx := {
    nGeos := 1
    nTimes := 1
    nMediaTimes := 1
    maxLag := 0
    hillBeforeAdstock := false
    media := ⟨1, .inl .geometric, .inl sat, fun _ => 1⟩
    rf := ⟨1, .inl .geometric, .inl sat, fun _ => 1⟩
    organicMedia := ⟨1, .inl .geometric, .inl sat, fun _ => 1⟩
    organicRf := ⟨1, .inl .geometric, .inl sat, fun _ => 1⟩
    nNonMedia := 2
    nControls := 0
    population := fun _ => 2
    nonMediaPopScaling := some fun c => c == 0
    nonMediaT := fun c => ⟨some fun _ => if c = 0 then 2 else 1, 0, 1⟩
    controlsT := fun _ => ⟨none, 0, 1⟩
    kpiT := ⟨fun _ => 2, 0, 1⟩
    kpiIsRevenue := false
    data := {
      nMediaTimes := 1
      media := fun _ _ _ => 2
      reach := fun _ _ _ => 2
      frequency := fun _ _ _ => 1
      organicMedia := fun _ _ _ => 2
      organicReach := fun _ _ _ => 2
      organicFrequency := fun _ _ _ => 1
      nonMedia := fun _ _ c => if c = 0 then 4 else 2
      controls := fun _ _ _ => 0
      revenuePerKpi := none } }
  normal := normal
  mediaPrior := paid
  rfPrior := paid
  organicMediaPrior := om
  organicRfPrior := orf
  nonMediaPrior := .contribution
  calibration := none
  rfCalibration := none
  mediaSpend := fun _ _ _ => 3
  rfSpend := fun _ _ _ => 3
  kpi := fun _ _ => 12
  nonMediaBaseline := fun _ => 1
  nKnots := 0
  weights := fun _ _ => 0
  baselineGeo := 0
  holdout := none

/-- Draws for `tiny`: ROI 5, marginal ROI 7, contribution one half, coefficient 0. -/
noncomputable def tinyKind : KindDraw where
  alpha := fun _ => 1 / 2
  ec := fun _ => 1
  eta := fun _ => 0
  slope := fun _ => 1
  dev := fun _ _ => 0
  coefficient := fun _ => 0
  roi := fun _ => 5
  mroi := fun _ => 7
  contribution := fun _ => 1 / 2

noncomputable def tinyDraw : Draw where
  knotValues := fun _ => 0
  sigma := fun _ => 1
  tauExclBaseline := []
  media := tinyKind
  rf := tinyKind
  organicMedia := tinyKind
  organicRf := tinyKind
  gammaC := fun _ => 0
  xiC := fun _ => 0
  gammaGcDev := fun _ _ => 0
  xiN := fun _ => 0
  gammaGnDev := fun _ _ => 0
  gammaN := fun _ => 0
  contributionN := fun _ => 1 / 2

theorem tiny_ok (sat : Sat) (a b c : PriorType) (n : Bool) : Ok (tiny sat a b c n) where
  wf := by
    refine ⟨by simp [tiny], fun g => by simp [tiny], fun c => ?_, rfl⟩
    by_cases h : c = 0 <;> simp [tiny, h]
  kpiPop := rfl
  kpiStd := by simp [tiny]
  media := by simp [tiny]
  reach := by simp [tiny]
  frequency := by simp [tiny]
  organicMedia := by simp [tiny]
  organicReach := by simp [tiny]
  organicFrequency := by simp [tiny]
  mediaMedian := by simp [tiny]
  rfMedian := by simp [tiny]
  organicMediaMedian := by simp [tiny]
  organicRfMedian := by simp [tiny]
  revenue := by simp [tiny]

theorem tinyKind_ok : KindOk tinyKind := ⟨by simp [tinyKind], by simp [tinyKind], by simp [tinyKind]⟩

theorem tinyDraw_ok : DrawOk tinyDraw := ⟨tinyKind_ok, tinyKind_ok, tinyKind_ok, tinyKind_ok⟩

theorem tiny_adstock (s : Setup) (hlag : s.ctx.maxLag = 0) (k : MediaKind) (hk : k.decay = .inl .geometric)
    (α : ℕ → ℝ) (x : T3) (g c : ℕ) : adstockForward s.ctx k α 1 1 x g 0 c = x g 0 c := by
  unfold adstockForward
  rw [hk, Adstock.adstock_eq _ _ _ _ _ _ (by norm_num) (by simp [series])]
  simp [entry, series, Adstock.Spec.adstockAt, Adstock.Spec.window, hlag,
    Adstock.Spec.weight, Adstock.Spec.retained, Adstock.Spec.decayOf, Adstock.Spec.mediaAt,
    List.range_succ]

theorem tiny_posterior (sat : Sat) (a b : PriorType) (n : Bool)
    (hb : b = .coefficient ∨ b = .contribution) (c : PriorType) (hc : c = .coefficient ∨ c = .contribution) :
    ∃ p, posterior (tiny sat a b c n) tinyDraw = .ok p := by
  rcases hb with rfl | rfl <;> rcases hc with rfl | rfl <;>
    simp [posterior, present, tiny, posteriorBetaOm, posteriorBetaOrf, posteriorGammaN]

/-- The value of the media channel of `tiny` when it is multiplied by `a`. -/
theorem tiny_value {sat : Sat} {a b c : PriorType} {n : Bool} {p : Params}
    (hp : posterior (tiny sat a b c n) tinyDraw = .ok p) (x : ℝ) :
    value (tiny sat a b c n).ctx p (scaleData (tiny sat a b c n).ctx
        (treat (tiny sat a b c n).ctx.data (.media 0) x (fun _ => true) true)) 1 (.media 0) 0 0
      = if sat = .hill then x / (x + 1) else x := by
  obtain ⟨h1, -⟩ := posterior_fields hp
  have h := value_media (br := true) (tiny_ok sat a b c n) h1 (c := 0) x (fun _ => true) 0 0
  refine h.trans ?_
  show adstockHillMedia (tiny sat a b c n).ctx (tiny sat a b c n).ctx.media _ 1 1 _ 0 0 0 = _
  unfold adstockHillMedia
  rw [if_neg (by simp [tiny])]
  simp only [hillForward]
  rw [tiny_adstock _ rfl (tiny sat a b c n).ctx.media rfl]
  cases sat <;>
    simp [tiny, tinyDraw, tinyKind, scaleMedia, mediaForward, mediaScale, Adstock.hill, mask, KindDraw.params]

theorem tiny_change {sat : Sat} {a b c : PriorType} {n : Bool} {p : Params}
    (hp : posterior (tiny sat a b c n) tinyDraw = .ok p) (q : Params) (hq : q = p ∨ q = unitCoef p)
    (x y : ℝ) :
    change (tiny sat a b c n).ctx q
        (treat (tiny sat a b c n).ctx.data (.media 0) x (fun _ => true) true)
        (treat (tiny sat a b c n).ctx.data (.media 0) y (fun _ => true) true)
      = q.media.beta 0 0 * (2 * ((if sat = .hill then x / (x + 1) else x)
          - if sat = .hill then y / (y + 1) else y)) := by
  rw [change_treat (tiny_ok sat a b c n) _ (ch := .media 0) (by simp [Chan.Valid, tiny]) trivial]
  have hv : ∀ z, value (tiny sat a b c n).ctx q (scaleData (tiny sat a b c n).ctx
        (treat (tiny sat a b c n).ctx.data (.media 0) z (fun _ => true) true)) 1 (.media 0) 0 0
      = if sat = .hill then z / (z + 1) else z := by
    intro z
    rcases hq with rfl | rfl
    · exact tiny_value hp z
    · rw [value_unitCoef]; exact tiny_value hp z
  have hn : (tiny sat a b c n).ctx.nGeos = 1 ∧ (tiny sat a b c n).ctx.nTimes = 1 := ⟨rfl, rfl⟩
  unfold outcomeOverBeta
  rw [hn.1, hn.2]
  simp only [Finset.sum_range_one, hv]
  simp only [coef, tiny]
  ring

/-- The hypotheses of the ROI theorems are met, with normal and with log-normal effects, and the change
they speak of is 15: an ROI of 5 on a spend of 3. -/
example (n : Bool) : ∃ p, posterior (tiny .hill .roi .contribution .contribution n) tinyDraw = .ok p ∧
    change (tiny .hill .roi .contribution .contribution n).ctx (unitCoef p)
      (tiny .hill .roi .contribution .contribution n).ctx.data
      (treat (tiny .hill .roi .contribution .contribution n).ctx.data (.media 0) 0 (fun _ => true) true) ≠ 0 ∧
    change (tiny .hill .roi .contribution .contribution n).ctx p
      (tiny .hill .roi .contribution .contribution n).ctx.data
      (treat (tiny .hill .roi .contribution .contribution n).ctx.data (.media 0) 0 (fun _ => true) true)
      = 15 := by
  obtain ⟨p, hp⟩ := tiny_posterior .hill .roi .contribution n (.inr rfl) .contribution (.inr rfl)
  have hmove : change (tiny .hill .roi .contribution .contribution n).ctx (unitCoef p)
      (tiny .hill .roi .contribution .contribution n).ctx.data
      (treat (tiny .hill .roi .contribution .contribution n).ctx.data (.media 0) 0 (fun _ => true) true)
      ≠ 0 := by
    have := tiny_change hp (unitCoef p) (.inr rfl) 1 0
    rw [treat_one] at this
    rw [this]
    norm_num [unitCoef]
  have hsp : spendIn (tiny .hill .roi .contribution .contribution n).ctx
      (tiny .hill .roi .contribution .contribution n).mediaSpend none 0 = 3 := by
    simp [spendIn, period, tiny]
  refine ⟨p, hp, hmove, ?_⟩
  have h := roi_prior_media (tiny_ok _ _ _ _ n) tinyDraw_ok hp rfl (c := 0) (by simp [tiny]) (.inl rfl)
    hmove (.inr (by
      show 0 < _ * spendIn _ _ none 0
      rw [hsp]; norm_num [tinyDraw, tinyKind]))
  refine h.trans ?_
  show _ * spendIn _ _ none 0 = _
  rw [hsp]; norm_num [tinyDraw, tinyKind]

/-- The hypotheses of the marginal ROI theorem are met. -/
example : ∃ p, posterior (tiny .hill .mroi .contribution .contribution true) tinyDraw = .ok p ∧
    HasHill (tiny .hill .mroi .contribution .contribution true).ctx.media 0 ∧
    change (tiny .hill .mroi .contribution .contribution true).ctx (unitCoef p)
      (treat (tiny .hill .mroi .contribution .contribution true).ctx.data (.media 0) 1.01 (fun _ => true) true)
      (tiny .hill .mroi .contribution .contribution true).ctx.data ≠ 0 := by
  obtain ⟨p, hp⟩ := tiny_posterior .hill .mroi .contribution true (.inr rfl) .contribution (.inr rfl)
  refine ⟨p, hp, .inl rfl, ?_⟩
  have := tiny_change hp (unitCoef p) (.inr rfl) 1.01 1
  rw [treat_one] at this
  rw [this]
  norm_num [unitCoef]

/-- **C30 (what is wrong in the code).** For a channel without saturation the counterfactual of a marginal
ROI prior is computed with the Hill function: in a valid setting with a drawn marginal ROI of 7 and a
spend of 3, one percent more execution changes the expected outcome by less than a tenth of the 0.21
that the prior prescribes. -/
theorem mroi_prior_ignored_without_saturation :
    ∃ p, posterior (tiny .none .mroi .contribution .contribution true) tinyDraw = .ok p ∧
      Ok (tiny .none .mroi .contribution .contribution true) ∧ DrawOk tinyDraw ∧
      change (tiny .none .mroi .contribution .contribution true).ctx (unitCoef p)
        (treat (tiny .none .mroi .contribution .contribution true).ctx.data (.media 0) 1.01
          (fun _ => true) true)
        (tiny .none .mroi .contribution .contribution true).ctx.data ≠ 0 ∧
      tinyDraw.media.mroi 0 * (0.01 * spendIn (tiny .none .mroi .contribution .contribution true).ctx
        (tiny .none .mroi .contribution .contribution true).mediaSpend none 0) = 0.21 ∧
      change (tiny .none .mroi .contribution .contribution true).ctx p
        (treat (tiny .none .mroi .contribution .contribution true).ctx.data (.media 0) 1.01
          (fun _ => true) true)
        (tiny .none .mroi .contribution .contribution true).ctx.data < 0.021 := by
  obtain ⟨p, hp⟩ := tiny_posterior .none .mroi .contribution true (.inr rfl) .contribution (.inr rfl)
  obtain ⟨h1, -⟩ := posterior_fields hp
  refine ⟨p, hp, tiny_ok _ _ _ _ _, tinyDraw_ok, ?_, ?_, ?_⟩
  · have := tiny_change hp (unitCoef p) (.inr rfl) 1.01 1
    rw [treat_one] at this
    rw [this, if_neg (by decide), if_neg (by decide)]
    norm_num [unitCoef]
  · have hsp : spendIn (tiny .none .mroi .contribution .contribution true).ctx
        (tiny .none .mroi .contribution .contribution true).mediaSpend none 0 = 3 := by
      simp [spendIn, period, tiny]
    rw [hsp]; norm_num [tinyDraw, tinyKind]
  · have := tiny_change hp p (.inl rfl) 1.01 1
    rw [treat_one] at this
    rw [this, h1]
    have ht : transformedMediaOf (tiny .none .mroi .contribution .contribution true) tinyKind 0 0 0 = 1 := by
      show adstockHillMedia _ _ _ 1 1 _ 0 0 0 = 1
      unfold adstockHillMedia
      rw [if_neg (by simp [tiny])]
      simp only [hillForward]
      rw [tiny_adstock _ rfl _ rfl]
      simp [tiny, scaleMedia, mediaForward, mediaScale, mask]
    have hcf : adstockHillMedia (tiny .none .mroi .contribution .contribution true).ctx
        { (tiny .none .mroi .contribution .contribution true).ctx.media with sat := .inl .hill }
        (tinyKind.params fun _ _ => 0) 1 1
        (fun g t c => scaleMedia (tiny .none .mroi .contribution .contribution true).ctx
          (tiny .none .mroi .contribution .contribution true).ctx.media
          (tiny .none .mroi .contribution .contribution true).ctx.data.media g t c * mroiFactor) 0 0 0
        = 1.01 / 2.01 := by
      unfold adstockHillMedia
      rw [if_neg (by simp [tiny])]
      simp only [hillForward]
      rw [tiny_adstock _ rfl _ rfl]
      simp [tiny, scaleMedia, mediaForward, mediaScale, mask, Adstock.hill, tinyKind, KindDraw.params, mroiFactor]
      norm_num
    have hb : (withGeos true tinyKind (posteriorBetaM (tiny .none .mroi .contribution .contribution true)
        tinyKind)).beta 0 0 = 0.105 / (1 - 1.01 / 2.01) := by
      have hd : counterfactualDifferenceMedia (tiny .none .mroi .contribution .contribution true).ctx
          (priorCounterfactual .mroi none
            (scaleMedia (tiny .none .mroi .contribution .contribution true).ctx
              (tiny .none .mroi .contribution .contribution true).ctx.media
              (tiny .none .mroi .contribution .contribution true).ctx.data.media))
          (transformedMediaOf (tiny .none .mroi .contribution .contribution true) tinyKind) tinyKind 0 0 0
          = 1 - 1.01 / 2.01 := by
        unfold counterfactualDifferenceMedia priorCounterfactual
        simp only
        rw [ht]
        refine (congrArg (fun z => |1 - z|) hcf).trans ?_
        norm_num
      show geoCoefficient true (posteriorBetaM _ _ 0) _ _ = _
      unfold posteriorBetaM
      rw [if_neg (by simp [tiny])]
      have hagg : aggregateSpend (tiny .none .mroi .contribution .contribution true).ctx
          (tiny .none .mroi .contribution .contribution true).mediaSpend
          (tiny .none .mroi .contribution .contribution true).calibration 0 = 3 := by
        simp [aggregateSpend, tiny]
      simp only [hagg]
      unfold calculateBeta outcomeOverBeta
      simp only [show (tiny .none .mroi .contribution .contribution true).normal = true from rfl,
        show (tiny .none .mroi .contribution .contribution true).ctx.nGeos = 1 from rfl,
        show (tiny .none .mroi .contribution .contribution true).ctx.nTimes = 1 from rfl,
        show (tiny .none .mroi .contribution .contribution true).mediaPrior = .mroi from rfl,
        show (tiny .none .mroi .contribution .contribution true).calibration = none from rfl,
        Finset.sum_range_one, hd, Bool.or_true, if_true, geoCoefficient]
      simp [tiny, tinyKind, treatmentParameter, priorDenominator, mroiFactor]
      norm_num
    have hb' : (withGeos (tiny .none .mroi .contribution .contribution true).normal tinyDraw.media
        (posteriorBetaM (tiny .none .mroi .contribution .contribution true) tinyDraw.media)).beta 0 0
        = 0.105 / (1 - 1.01 / 2.01) := hb
    rw [hb', if_neg (by decide), if_neg (by decide)]
    norm_num

/-- **C31 (what is wrong in the code).** With a coefficient prior for organic media and a contribution prior
for organic reach and frequency, both documented choices, the two samplers derive different coefficients of
organic reach and frequency: the prior sampler uses the drawn coefficient. -/
theorem organic_rf_prior_type_mismatch :
    ∃ p q, posterior (tiny .hill .roi .coefficient .contribution true) tinyDraw = .ok p ∧
      prior (tiny .hill .roi .coefficient .contribution true) tinyDraw = .ok q ∧
      p.organicRf.beta 0 0 = 6 ∧ q.organicRf.beta 0 0 = 0 := by
  refine ⟨_, _, rfl, rfl, ?_, ?_⟩
  · have ht : transformedOrganicRfOf (tiny .hill .roi .coefficient .contribution true) tinyDraw.organicRf 0 0 0
        = 1 / 2 := by
      show adstockHillRf _ _ _ 1 1 _ _ 0 0 0 = 1 / 2
      unfold adstockHillRf
      simp only [hillForward]
      rw [tiny_adstock _ rfl _ rfl]
      norm_num [tiny, tinyDraw, scaleMedia, mediaForward, mediaScale, mask, Adstock.hill, tinyKind,
        KindDraw.params]
    show geoCoefficient true (calculateBeta _ _ _ _ _ _) _ _ = 6
    unfold calculateBeta outcomeOverBeta
    simp only [show (tiny .hill .roi .coefficient .contribution true).normal = true from rfl,
        show (tiny .hill .roi .coefficient .contribution true).ctx.nGeos = 1 from rfl,
        show (tiny .hill .roi .coefficient .contribution true).ctx.nTimes = 1 from rfl,
        Finset.sum_range_one, ht, Bool.or_true, if_true, geoCoefficient]
    norm_num [tiny, tinyDraw, tinyKind, totalOutcome]
  · show geoCoefficient true _ _ _ = 0
    simp [geoCoefficient, tinyDraw, tinyKind]

/-- **C30 (what is wrong in the code).** For a non-media treatment scaled by population the contribution
prior is not honoured: with a drawn contribution of one half of an outcome of 12, moving the treatment
to its baseline changes the expected outcome by 4 instead of 6. -/
theorem nonMedia_contribution_population_scaled :
    ∃ p, posterior (tiny .hill .roi .contribution .contribution true) tinyDraw = .ok p ∧
      Ok (tiny .hill .roi .contribution .contribution true) ∧
      tinyDraw.contributionN 0 * observedOutcome (tiny .hill .roi .contribution .contribution true) = 6 ∧
      change (tiny .hill .roi .contribution .contribution true).ctx p
        (tiny .hill .roi .contribution .contribution true).ctx.data
        (atBaseline (tiny .hill .roi .contribution .contribution true).ctx
          (tiny .hill .roi .contribution .contribution true).ctx.data 0
          (tiny .hill .roi .contribution .contribution true).nonMediaBaseline) = 4 := by
  refine ⟨_, rfl, tiny_ok _ _ _ _ _, ?_, ?_⟩
  · norm_num [tinyDraw, observedOutcome, tiny]
  · rw [change_baseline (tiny_ok _ _ _ _ _) _ (by simp [tiny])]
    simp only [calculateBeta, outcomeOverBeta, samplerBaseline, baselineNormalized, scaleCs, csForward,
      divideNoNan, tiny, tinyDraw, totalOutcome, Finset.sum_range_one, Bool.true_or, if_true]
    norm_num

/-- The same setting meets the hypotheses of the theorem for the second channel, which is not scaled by
population. -/
example : (∀ g, nonMediaFactor (tiny .hill .roi .contribution .contribution true).ctx g 1 = 1) ∧
    ∃ p, posterior (tiny .hill .roi .contribution .contribution true) tinyDraw = .ok p ∧
      change (tiny .hill .roi .contribution .contribution true).ctx (unitCoef p)
        (tiny .hill .roi .contribution .contribution true).ctx.data
        (atBaseline (tiny .hill .roi .contribution .contribution true).ctx
          (tiny .hill .roi .contribution .contribution true).ctx.data 1
          (tiny .hill .roi .contribution .contribution true).nonMediaBaseline) = 2 := by
  refine ⟨by simp [nonMediaFactor, tiny], _, rfl, ?_⟩
  rw [change_baseline (tiny_ok _ _ _ _ _) _ (by simp [tiny])]
  simp only [outcomeOverBeta, baselineNormalized, scaleCs, csForward, unitCoef,
      divideNoNan, tiny, Finset.sum_range_one]
  norm_num

/-- One geo, two times of which the second is held out, no treatments; the KPI is one, then `x`, and its
transformer is built from it, as in `ModelContext.kpi_transformer`. -/
noncomputable def heldOut (x : ℝ) : Setup :=
  let kpi : Panel := fun _ t => if t = 0 then 1 else x
  let base := tiny .hill .roi .contribution .contribution true
  { base with
    ctx := { base.ctx with
      nTimes := 2, nMediaTimes := 2
      media := ⟨0, .inl .geometric, .inl .hill, fun _ => 1⟩
      rf := ⟨0, .inl .geometric, .inl .hill, fun _ => 1⟩
      organicMedia := ⟨0, .inl .geometric, .inl .hill, fun _ => 1⟩
      organicRf := ⟨0, .inl .geometric, .inl .hill, fun _ => 1⟩
      nNonMedia := 0
      population := fun _ => 1
      kpiT := kpiInit 1 2 kpi fun _ => 1 }
    kpi := kpi
    holdout := some fun _ t => t == 1 }

theorem heldOut_logLikelihood (x : ℝ) :
    drawLogLikelihood (heldOut x) tinyDraw
      = .ok (logGauss 0 1 (kpiForward (heldOut x).ctx.kpiT (heldOut x).kpi 0 0)) := by
  have hp : ∃ p, posterior (heldOut x) tinyDraw = .ok p ∧ p.tau 0 = 0 ∧ p.mu 0 = 0 := by
    refine ⟨_, rfl, ?_, ?_⟩
    · simp [tinyDraw, computeTauG, heldOut, tiny]
    · simp [muT, heldOut, tiny]
  obtain ⟨p, hp, h1, h2⟩ := hp
  unfold drawLogLikelihood
  rw [hp]
  simp only [Except.ok.injEq]
  rw [likelihood_of_observed _ _ _ _ (fun g _ => by simp [tinyDraw])]
  have hg : (heldOut x).ctx.nGeos = 1 ∧ (heldOut x).ctx.nTimes = 2 := ⟨rfl, rfl⟩
  rw [hg.1, hg.2, Finset.sum_range_one]
  classical
  rw [Finset.sum_filter, Finset.sum_range_succ, Finset.sum_range_one]
  have o0 : Observed (heldOut x).holdout 0 0 := by intro h e; cases e; rfl
  have o1 : ¬ Observed (heldOut x).holdout 0 1 := by
    intro h
    have := h _ rfl
    simp at this
  rw [if_pos o0, if_neg o1, add_zero]
  have hy : yPred (heldOut x) tinyDraw p 0 0 = 0 := by
    unfold yPred
    simp only [h1, h2]
    simp [heldOut, tiny, nMediaLike]
  rw [hy]
  simp [tinyDraw]

/-- **C32 (what the holdout does not cover).** The KPI is centred and scaled with the mean and the standard
deviation of all cells, held out or not: with the KPI one at the only observed cell, the log density of
the same parameters is higher when the held-out cell is one than when it is three. -/
theorem held_out_kpi_enters_the_scale :
    (∀ g t, Observed (heldOut 1).holdout g t → t < 2 → (heldOut 1).kpi g t = (heldOut 3).kpi g t) ∧
    ∃ a b, drawLogLikelihood (heldOut 1) tinyDraw = .ok a ∧ drawLogLikelihood (heldOut 3) tinyDraw = .ok b ∧
      b < a := by
  constructor
  · intro g t ho ht
    obtain rfl | rfl : t = 0 ∨ t = 1 := by omega
    · rfl
    · have := ho _ rfl
      simp at this
  · refine ⟨_, _, heldOut_logLikelihood 1, heldOut_logLikelihood 3, ?_⟩
    have e1 : kpiForward (heldOut 1).ctx.kpiT (heldOut 1).kpi 0 0 = 0 := by
      norm_num [heldOut, kpiForward, kpiInit, Transformers.mean, Transformers.std, cells, popScaled,
        divideNoNan, List.range_succ]
    have e3 : kpiForward (heldOut 3).ctx.kpiT (heldOut 3).kpi 0 0 = -1 := by
      norm_num [heldOut, kpiForward, kpiInit, Transformers.mean, Transformers.std, cells, popScaled,
        divideNoNan, List.range_succ]
    rw [e1, e3]
    unfold logGauss
    apply Real.log_lt_log
    · have := sqrt_two_pi_pos; positivity
    · apply mul_lt_mul_of_pos_left
      · apply Real.exp_lt_exp.2; norm_num
      · have := sqrt_two_pi_pos; positivity

/-- `tiny` meets the hypotheses of `baselines_differ` at its first and of `baselines_agree` at its second
channel, and those of `prior_eq_posterior`. -/
example : samplerBaseline (tiny .hill .roi .contribution .contribution true) 0 0 0
      ≠ baselineNormalized (tiny .hill .roi .contribution .contribution true).ctx (fun _ => 1) 0 ∧
    samplerBaseline (tiny .hill .roi .contribution .contribution true) 0 0 1
      = baselineNormalized (tiny .hill .roi .contribution .contribution true).ctx (fun _ => 1) 1 ∧
    prior (tiny .hill .roi .contribution .contribution true) tinyDraw
      = posterior (tiny .hill .roi .contribution .contribution true) tinyDraw :=
  ⟨baselines_differ (tiny_ok _ _ _ _ _) rfl rfl (by simp [tiny]) (by simp [tiny]) (by simp [tiny]) 0,
    baselines_agree (tiny_ok _ _ _ _ _) (by simp [nonMediaFactor, tiny]) 0 0,
    prior_eq_posterior _ _ (.inl rfl)⟩

/-- Geo effects with the baseline in the middle; the default baseline geo is the first of the largest. -/
example : (computeTauG [5, 7, 9] 1) = [5, 0, 7, 9] ∧
    baselineGeoIdx ["a", "b", "c", "d"] [3, 8, 8, 1] .default = .ok 1 ∧
    baselineGeoIdx ["a", "b", "c", "d"] [3, 8, 8, 1] (.name "c") = .ok 2 ∧
    baselineGeoIdx ["a", "b", "c", "d"] [3, 8, 8, 1] (.index (-1)) = .error .outOfRange := by
  refine ⟨rfl, by decide +kernel, by decide +kernel, by decide +kernel⟩

end Verif.Sampler.Props
