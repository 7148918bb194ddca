import Verif.Spec.SpecSerde
import Verif.Props.Options

/-!
# C43: hyperparameters survive saving and loading
-/

namespace Verif.SpecSerde.Props

open Verif Verif.SpecSerde Verif.SpecSerde.Spec
open Verif.Options (Choice)

variable {α τ : Type} {mk : α → τ} {rd : τ → α} {shape : α → List ℕ} {f32 : ℚ → ℚ}

/-! ### Enums -/

theorem lookup_mem {m : List (String × String)} {k v : String} (h : m.lookup k = some v) :
    (k, v) ∈ m := by
  induction m with
  | nil => simp at h
  | cons e rest ih =>
    obtain ⟨k', v'⟩ := e
    rw [List.lookup_cons] at h
    by_cases hk : k = k'
    · subst hk
      simp only [beq_self_eq_true] at h
      obtain rfl := Option.some.inj h
      exact List.mem_cons_self
    · have hb : (k == k') = false := by simpa using hk
      rw [hb] at h
      exact List.mem_cons_of_mem _ (ih h)

theorem lookup_of_nodup {m : List (String × String)} (hd : (m.map Prod.fst).Nodup) {k v : String}
    (h : (k, v) ∈ m) : m.lookup k = some v := by
  induction m with
  | nil => simp at h
  | cons e rest ih =>
    obtain ⟨k', v'⟩ := e
    simp only [List.map_cons, List.nodup_cons] at hd
    rcases List.mem_cons.1 h with e | hm
    · obtain ⟨rfl, rfl⟩ := Prod.mk.inj e
      simp
    · have hne : k ≠ k' := by
        rintro rfl
        exact hd.1 (List.mem_map.2 ⟨(k, v), hm, rfl⟩)
      have hb : (k == k') = false := by simpa using hne
      rw [List.lookup_cons, hb]
      exact ih hd.2 hm

/-- C43: a converter whose names are distinct and none of them the unspecified one gives back every
string that it accepts, and its default for `None`. -/
theorem converter_round_trip (c : Converter) (hn : (c.mapping.map Prod.snd).Nodup)
    (hu : c.unspecified ∉ c.mapping.map Prod.snd) {s : Option String} {n : String}
    (h : c.toProto s = .ok n) :
    c.fromProto n = .ok (match s with | some x => some x | none => c.default) := by
  cases s with
  | none =>
    simp only [Converter.toProto, Except.ok.injEq] at h
    subst h
    simp [Converter.fromProto]
  | some x =>
    unfold Converter.toProto at h
    simp only at h
    cases hl : c.mapping.lookup x with
    | none => rw [hl] at h; simp at h
    | some m =>
      rw [hl] at h
      simp only [Except.ok.injEq] at h
      subst h
      have hm := lookup_mem hl
      have hne : m ≠ c.unspecified := by
        rintro rfl
        exact hu (List.mem_map.2 ⟨_, hm, rfl⟩)
      unfold Converter.fromProto
      rw [if_neg hne]
      have : (c.mapping.map Prod.swap).lookup m = some x := by
        apply lookup_of_nodup
        · rw [List.map_map]
          exact hn
        · exact List.mem_map.2 ⟨_, hm, rfl⟩
      rw [this]

/-- The three converters of the hyperparameters are such converters. -/
theorem converters_bijective :
    ∀ c ∈ [effectsConverter, paidConverter, nonPaidConverter],
      (c.mapping.map Prod.fst).Nodup ∧ (c.mapping.map Prod.snd).Nodup ∧
        c.unspecified ∉ c.mapping.map Prod.snd := by
  intro c hc
  simp only [List.mem_cons, List.not_mem_nil, or_false] at hc
  rcases hc with rfl | rfl | rfl <;> decide

theorem effects_conv {e : String} (h : e = "normal" ∨ e = "log_normal") :
    ∃ n, effectsConverter.toProto (some e) = .ok n ∧
      effectsConverter.fromProto n = .ok (some e) := by
  rcases h with rfl | rfl
  · exact ⟨"NORMAL", by decide, by decide⟩
  · exact ⟨"LOG_NORMAL", by decide, by decide⟩

theorem nonPaid_conv {e : String} (h : e = "coefficient" ∨ e = "contribution") :
    ∃ n, nonPaidConverter.toProto (some e) = .ok n ∧
      nonPaidConverter.fromProto n = .ok (some e) := by
  rcases h with rfl | rfl
  · exact ⟨"NON_PAID_TREATMENTS_PRIOR_TYPE_COEFFICIENT", by decide, by decide⟩
  · exact ⟨"NON_PAID_TREATMENTS_PRIOR_TYPE_CONTRIBUTION", by decide, by decide⟩

theorem paid_conv {e : Option String}
    (h : ∀ t, e = some t → t = "roi" ∨ t = "mroi" ∨ t = "coefficient" ∨ t = "contribution") :
    ∃ n, paidConverter.toProto e = .ok n ∧ paidConverter.fromProto n = .ok e := by
  cases e with
  | none => exact ⟨"PAID_MEDIA_PRIOR_TYPE_UNSPECIFIED", by decide, by decide⟩
  | some t =>
    rcases h t rfl with rfl | rfl | rfl | rfl
    · exact ⟨"ROI", by decide, by decide⟩
    · exact ⟨"MROI", by decide, by decide⟩
    · exact ⟨"COEFFICIENT", by decide, by decide⟩
    · exact ⟨"CONTRIBUTION", by decide, by decide⟩

/-- What an unspecified value stands for: log-normal effects, no prior type for paid media (so the
default of the specification applies), contribution for other treatments. -/
theorem unspecified_defaults {α τ : Type} (rd : τ → α) (shape : α → List ℕ) (p : Proto τ)
    (s : SpecSerde.Spec α) (h : deserialize rd shape p = .ok s) :
    (p.effects = "MEDIA_EFFECTS_DISTRIBUTION_UNSPECIFIED" → s.effects = "log_normal") ∧
    (p.mediaPrior = "PAID_MEDIA_PRIOR_TYPE_UNSPECIFIED" → s.mediaPrior = none) ∧
    (p.rfPrior = "PAID_MEDIA_PRIOR_TYPE_UNSPECIFIED" → s.rfPrior = none) ∧
    (p.paidPrior = "PAID_MEDIA_PRIOR_TYPE_UNSPECIFIED" → s.paidPrior = none) ∧
    (p.organicMediaPrior = "NON_PAID_TREATMENTS_PRIOR_TYPE_UNSPECIFIED" →
      s.organicMediaPrior = "contribution") ∧
    (p.organicRfPrior = "NON_PAID_TREATMENTS_PRIOR_TYPE_UNSPECIFIED" →
      s.organicRfPrior = "contribution") ∧
    (p.nonMediaPrior = "NON_PAID_TREATMENTS_PRIOR_TYPE_UNSPECIFIED" →
      s.nonMediaPrior = "contribution") := by
  have bind_ok : ∀ {β γ : Type} {x : Except Err β} {f : β → Except Err γ} {y : γ},
      (x >>= f) = .ok y → ∃ a, x = .ok a ∧ f a = .ok y := by
    intro β γ x f y hxy
    cases x with
    | error e => cases hxy
    | ok a => exact ⟨a, rfl, hxy⟩
  unfold deserialize at h
  obtain ⟨b0, -, h⟩ := bind_ok h
  obtain ⟨b1, h1, h⟩ := bind_ok h
  obtain ⟨b2, h2, h⟩ := bind_ok h
  obtain ⟨b3, h3, h⟩ := bind_ok h
  obtain ⟨b4, h4, h⟩ := bind_ok h
  obtain ⟨b5, h5, h⟩ := bind_ok h
  obtain ⟨b6, h6, h⟩ := bind_ok h
  obtain ⟨b7, h7, h⟩ := bind_ok h
  unfold construct at h
  split at h
  · cases h
  · cases h
    have hd : ∀ {c : Converter} {n : String} {o : Option String}, c.fromProto n = .ok o →
        n = c.unspecified → o = c.default := by
      intro c n o ho hn
      unfold Converter.fromProto at ho
      rw [if_pos hn] at ho
      exact (Except.ok.inj ho).symm
    refine ⟨fun e => ?_, fun e => ?_, fun e => ?_, fun e => ?_, fun e => ?_, fun e => ?_,
      fun e => ?_⟩
    · simp only [hd h1 e]; rfl
    · simp only [hd h2 e]; rfl
    · simp only [hd h3 e]; rfl
    · simp only [hd h4 e]; rfl
    · simp only [hd h5 e]; rfl
    · simp only [hd h6 e]; rfl
    · simp only [hd h7 e]; rfl

/-! ### The other fields -/

theorem fitsInt32_iff (k : ℤ) : fitsInt32 k = true ↔ -2 ^ 31 ≤ k ∧ k < 2 ^ 31 := by
  unfold fitsInt32
  simp only [Bool.and_eq_true, decide_eq_true_eq]
  constructor <;> rintro ⟨h1, h2⟩ <;> constructor <;> omega

theorem fitsUint32_iff (k : ℤ) : fitsUint32 k = true ↔ 0 ≤ k ∧ k < 2 ^ 32 := by
  unfold fitsUint32
  simp only [Bool.and_eq_true, decide_eq_true_eq]
  constructor <;> rintro ⟨h1, h2⟩ <;> constructor <;> omega

/-- What is loaded from the saved knots. -/
def loadedKnots : Knots → Knots
  | .list [k] => .int k
  | k => k

/-- What is loaded from a saved choice of functions. -/
def loadedChoice (default : String) : Choice → Choice
  | .byChannel [] => .all default
  | .other => .all default
  | c => c

theorem loadChoice_saveChoice (d : String) (c : Choice) :
    loadChoice d (saveChoice c) = loadedChoice d c := by
  cases c with
  | all f => rfl
  | byChannel m => cases m <;> rfl
  | other => rfl

theorem loadBases_map_num {l : List Base}
    (h : ∀ b ∈ l, (∃ q, b = .num q) ∨ ∃ t, b = .str t ∧ (t.toLower = "min" ∨ t.toLower = "max")) :
    ∃ l', loadBases (l.map (saveBase f32)) = .ok l' ∧ List.Forall₂ (SameBase f32) l l' := by
  induction l with
  | nil => exact ⟨[], rfl, .nil⟩
  | cons b rest ih =>
    obtain ⟨l', h1, h2⟩ := ih fun b hb => h b (List.mem_cons_of_mem _ hb)
    have hb : ∃ b', loadBase (saveBase f32 b) = .ok b' ∧ SameBase f32 b b' := by
      rcases h b (by simp) with ⟨q, rfl⟩ | ⟨t, rfl, ht | ht⟩
      · exact ⟨_, rfl, .num q⟩
      · exact ⟨.str "min", by simp [saveBase, ht, loadBase], .min ht⟩
      · have : ¬t.toLower = "min" := by rw [ht]; decide
        exact ⟨.str "max", by simp [saveBase, ht, loadBase], .max ht⟩
    obtain ⟨b', e1, e2⟩ := hb
    refine ⟨b' :: l', ?_, .cons e2 h2⟩
    simp only [List.map_cons, loadBases, e1, h1]

theorem loadBaselines_save {o : Option (List Base)}
    (h : ∀ l, o = some l → l ≠ [] ∧
      ∀ b ∈ l, (∃ q, b = .num q) ∨ ∃ t, b = .str t ∧ (t.toLower = "min" ∨ t.toLower = "max")) :
    ∃ o', loadBaselines ((o.getD []).map (saveBase f32)) = .ok o' ∧
      ((o = none ∧ o' = none) ∨
        ∃ la lb, o = some la ∧ o' = some lb ∧ List.Forall₂ (SameBase f32) la lb) := by
  cases o with
  | none => exact ⟨none, rfl, Or.inl ⟨rfl, rfl⟩⟩
  | some l =>
    obtain ⟨hne, hb⟩ := h l rfl
    obtain ⟨l', h1, h2⟩ := loadBases_map_num (f32 := f32) hb
    refine ⟨some l', ?_, Or.inr ⟨l, l', rfl, rfl, h2⟩⟩
    cases l with
    | nil => exact absurd rfl hne
    | cons b rest =>
      simp only [Option.getD_some, List.map_cons] at h1 ⊢
      simp only [loadBaselines, h1]

/-- What saving and loading computes, for a specification that `ModelSpec` accepts and the message can
hold: the checks of `ModelSpec` on the loaded options. -/
theorem roundTrip_eq {s : SpecSerde.Spec α} (hrd : ∀ a, rd (mk a) = a)
    (hc : Options.specErr (toOptions shape s) = none)
    (hlag : ∀ k, s.maxLag = some k → 0 ≤ k ∧ k < 2 ^ 32)
    (hk1 : ∀ k, s.knots = .int k → -2 ^ 31 ≤ k ∧ k < 2 ^ 31)
    (hk2 : ∀ l, s.knots = .list l → ∀ k ∈ l, -2 ^ 31 ≤ k ∧ k < 2 ^ 31)
    (hg : ∀ k, s.baselineGeo = .int k → -2 ^ 31 ≤ k ∧ k < 2 ^ 31) :
    roundTrip mk rd shape f32 s =
      (match loadBaselines ((s.baselines.getD []).map (saveBase f32)) with
      | .error e => .error e
      | .ok b => construct shape { s with
          knots := loadedKnots s.knots
          baselineGeo := match s.baselineGeo with | .other _ => .none | g => g
          adstock := loadedChoice "geometric" s.adstock
          saturation := loadedChoice "hill" s.saturation
          baselines := b }) := by
  have co := (Options.Props.spec_accepted_iff _).1 hc
  obtain ⟨n1, a1, b1⟩ := effects_conv (e := s.effects) co.effects
  have hpaid : ∀ t, s.paidPrior = some t →
      t = "roi" ∨ t = "mroi" ∨ t = "coefficient" ∨ t = "contribution" := by
    intro t ht
    rcases co.common with h | ⟨h, _⟩
    · simp only [toOptions] at h
      rw [h] at ht; simp at ht
    · apply co.paid s.mediaPrior (by simp [toOptions]) t
      right; left
      exact ⟨h, ht⟩
  obtain ⟨n2, a2, b2⟩ := paid_conv (e := s.mediaPrior)
    fun t ht => co.paid s.mediaPrior (by simp [toOptions]) t (Or.inl ht)
  obtain ⟨n3, a3, b3⟩ := paid_conv (e := s.rfPrior)
    fun t ht => co.paid s.rfPrior (by simp [toOptions]) t (Or.inl ht)
  obtain ⟨n4, a4, b4⟩ := paid_conv hpaid
  obtain ⟨n5, a5, b5⟩ := nonPaid_conv (co.nonPaid s.organicMediaPrior (by simp [toOptions]))
  obtain ⟨n6, a6, b6⟩ := nonPaid_conv (co.nonPaid s.organicRfPrior (by simp [toOptions]))
  obtain ⟨n7, a7, b7⟩ := nonPaid_conv (co.nonPaid s.nonMediaPrior (by simp [toOptions]))
  have a8 : saveLag s.maxLag = .ok s.maxLag := by
    cases hl : s.maxLag with
    | none => rfl
    | some k =>
      unfold saveLag
      simp only
      rw [if_pos ((fitsUint32_iff k).2 (hlag k hl))]
  have a9 : ∃ l, saveKnots s.knots = .ok l ∧ loadKnots l = loadedKnots s.knots := by
    cases hl : s.knots with
    | none => exact ⟨[], rfl, rfl⟩
    | int k =>
      refine ⟨[k], ?_, rfl⟩
      unfold saveKnots
      simp only
      rw [if_pos ((fitsInt32_iff k).2 (hk1 k hl))]
    | list l =>
      refine ⟨l, ?_, ?_⟩
      · unfold saveKnots
        simp only
        rw [if_pos]
        rw [List.all_eq_true]
        intro k hk
        exact (fitsInt32_iff k).2 (hk2 l hl k hk)
      · have hk := co.knots
        simp only [toOptions, hl, Knots.toOptions] at hk
        rcases hk with h | ⟨_, h | ⟨l', h, hne⟩⟩
        · simp at h
        · simp at h
        · match l with
          | [] =>
            simp only [List.map_nil, Options.Knots.coll.injEq] at h
            exact absurd (List.map_eq_nil_iff.1 h.symm) hne
          | [k] => rfl
          | k1 :: k2 :: rest => rfl
  obtain ⟨kn, a9, b9⟩ := a9
  have a10 : ∃ g, saveGeo s.baselineGeo = .ok g ∧
      loadGeo g = (match s.baselineGeo with | .other _ => .none | g => g) := by
    cases hl : s.baselineGeo with
    | none => exact ⟨none, rfl, rfl⟩
    | other k => exact ⟨none, rfl, rfl⟩
    | str n => exact ⟨some (.inr n), rfl, rfl⟩
    | int k =>
      refine ⟨some (.inl k), ?_, rfl⟩
      unfold saveGeo
      simp only
      rw [if_pos ((fitsInt32_iff k).2 (hg k hl))]
  obtain ⟨gg, a10, b10⟩ := a10
  have hm : ∀ o : Option α, (o.map mk).map rd = o := by
    intro o; cases o <;> simp [hrd]
  unfold roundTrip serialize
  simp only [a1, a2, a3, a4, a5, a6, a7, a8, a9, a10, bind, Except.bind, pure, Except.pure]
  unfold deserialize
  simp only [b1, b2, b3, b4, b5, b6, b7, b9, b10, bind, Except.bind, hm, Option.getD_some,
    loadChoice_saveChoice]
  cases loadBaselines ((s.baselines.getD []).map (saveBase f32)) <;> rfl

theorem saturation_ok {c : Choice} (h : Options.saturationErr c = none) :
    Options.saturationErr (loadedChoice "hill" c) = none := by
  cases c with
  | all f => exact h
  | byChannel m => cases m <;> simp_all [loadedChoice, Options.saturationErr]
  | other => simp [loadedChoice, Options.saturationErr]

theorem specErr_parts (o o' : Options.Spec) (h1 : o'.mediaEffectsDist = o.mediaEffectsDist)
    (h2 : o'.paidMediaPriorType = o.paidMediaPriorType) (h3 : o'.mediaPriorType = o.mediaPriorType)
    (h4 : o'.rfPriorType = o.rfPriorType) (h5 : o'.organicMediaPriorType = o.organicMediaPriorType)
    (h6 : o'.organicRfPriorType = o.organicRfPriorType)
    (h7 : o'.nonMediaPriorType = o.nonMediaPriorType) (h8 : o'.roiCalibration = o.roiCalibration)
    (h9 : o'.rfRoiCalibration = o.rfRoiCalibration) (hc : Options.specErr o = none) :
    Options.specErr o' =
      match Options.knotsErr o'.knots o'.enableAks with
      | some e => some e
      | none => Options.saturationErr o'.saturation := by
  have e1 : Options.effectiveMedia o' = Options.effectiveMedia o := by
    unfold Options.effectiveMedia; rw [h2, h3]
  have e2 : Options.effectiveRf o' = Options.effectiveRf o := by
    unfold Options.effectiveRf; rw [h2, h4]
  unfold Options.specErr at hc ⊢
  rw [h1, h2, h3, h4, h5, h6, h7, h8, h9, e1, e2]
  split_ifs at hc ⊢
  cases hx : Options.calibrationErr o.roiCalibration (Options.effectiveMedia o) with
  | some e => rw [hx] at hc; simp at hc
  | none =>
    cases hy : Options.calibrationErr o.rfRoiCalibration (Options.effectiveRf o) with
    | some e => rw [hx, hy] at hc; simp at hc
    | none => rfl

theorem construct_eq {s : SpecSerde.Spec α} (hc : Options.specErr (toOptions shape s) = none)
    (s' : SpecSerde.Spec α) (h : (toOptions shape s').mediaEffectsDist = s.effects ∧
      s'.paidPrior = s.paidPrior ∧ s'.mediaPrior = s.mediaPrior ∧ s'.rfPrior = s.rfPrior ∧
      s'.organicMediaPrior = s.organicMediaPrior ∧ s'.organicRfPrior = s.organicRfPrior ∧
      s'.nonMediaPrior = s.nonMediaPrior ∧ s'.roiCalibration = s.roiCalibration ∧
      s'.rfRoiCalibration = s.rfRoiCalibration) :
    construct shape s' =
      match Options.knotsErr s'.knots.toOptions s'.enableAks with
      | some e => .error (.spec e)
      | none =>
        match Options.saturationErr s'.saturation with
        | some e => .error (.spec e)
        | none => .ok s' := by
  obtain ⟨h1, h2, h3, h4, h5, h6, h7, h8, h9⟩ := h
  unfold construct
  rw [specErr_parts (toOptions shape s) (toOptions shape s') h1 h2 h3 h4 h5 h6 h7
    (by simp [toOptions, h8]) (by simp [toOptions, h9]) hc]
  simp only [toOptions]
  cases Options.knotsErr s'.knots.toOptions s'.enableAks <;> rfl

theorem specErr_tail {o : Options.Spec} (hc : Options.specErr o = none) :
    Options.knotsErr o.knots o.enableAks = none ∧ Options.saturationErr o.saturation = none := by
  have := specErr_parts o o rfl rfl rfl rfl rfl rfl rfl rfl rfl hc
  rw [hc] at this
  cases h : Options.knotsErr o.knots o.enableAks with
  | some e => rw [h] at this; simp at this
  | none => rw [h] at this; exact ⟨rfl, this.symm⟩

theorem sameChoice_loaded {d : String} {c : Choice} (h : c ≠ .other) :
    SameChoice d c (loadedChoice d c) := by
  cases c with
  | all f => exact Or.inl rfl
  | byChannel m =>
    cases m with
    | nil => exact Or.inr ⟨rfl, rfl⟩
    | cons a l => exact Or.inl rfl
  | other => exact absurd rfl h

theorem saturation_not_other {c : Choice} (h : Options.saturationErr c = none) : c ≠ .other := by
  rintro rfl
  simp [Options.saturationErr] at h

theorem roundTrip_ok {s : SpecSerde.Spec α} (hrd : ∀ a, rd (mk a) = a)
    (hc : Options.specErr (toOptions shape s) = none) (hs : Storable s)
    (hk : Options.knotsErr (loadedKnots s.knots).toOptions s.enableAks = none) :
    ∃ s', roundTrip mk rd shape f32 s = .ok s' ∧
      Equivalent f32 { s with knots := loadedKnots s.knots } s' := by
  have hg : ∀ k, s.baselineGeo = .int k → -2 ^ 31 ≤ k ∧ k < 2 ^ 31 := by
    intro k hk
    rcases hs.geo with ⟨k', h, h'⟩ | ⟨n, h⟩ | h
    · rw [h] at hk
      obtain rfl := Geo.int.inj hk
      exact h'
    · rw [h] at hk; simp at hk
    · rw [h] at hk; simp at hk
  have hgeo : (match s.baselineGeo with | .other _ => .none | g => g) = s.baselineGeo := by
    rcases hs.geo with ⟨k', h, h'⟩ | ⟨n, h⟩ | h <;> rw [h]
  rw [roundTrip_eq hrd hc hs.maxLag hs.knotsInt hs.knotsList hg]
  obtain ⟨o', h1, h2⟩ := loadBaselines_save (f32 := f32) hs.baselines
  rw [h1]
  simp only
  obtain ⟨-, hsat⟩ := specErr_tail hc
  rw [construct_eq hc]
  case h => exact ⟨rfl, rfl, rfl, rfl, rfl, rfl, rfl, rfl, rfl⟩
  have hsat' : Options.saturationErr (loadedChoice "hill" s.saturation) = none := saturation_ok hsat
  simp only [hk, hsat']
  refine ⟨_, rfl, ?_⟩
  constructor <;> try rfl
  · exact h2
  · exact hgeo
  · exact sameChoice_loaded hs.adstock
  · exact sameChoice_loaded (saturation_not_other hsat)

/-- C43: a specification that `ModelSpec` accepts and the message can hold comes back equivalent,
if its knots are not a list of one location. -/
theorem round_trip_equivalent {s : SpecSerde.Spec α} (hrd : ∀ a, rd (mk a) = a)
    (hc : Options.specErr (toOptions shape s) = none) (hs : Storable s)
    (hk : ∀ k, s.knots ≠ .list [k]) :
    ∃ s', roundTrip mk rd shape f32 s = .ok s' ∧ Equivalent f32 s s' := by
  have he : loadedKnots s.knots = s.knots := by
    cases h : s.knots with
    | none => rfl
    | int k => rfl
    | list l =>
      match l with
      | [] => rfl
      | [k] => exact absurd h (hk k)
      | _ :: _ :: _ => rfl
  have := roundTrip_ok (mk := mk) (rd := rd) (shape := shape) (f32 := f32) hrd hc hs (by
    rw [he]; exact (specErr_tail hc).1)
  rw [he] at this
  exact this

/-- C43, violated: a list of one knot location comes back as a number of knots. -/
theorem one_location_becomes_number {s : SpecSerde.Spec α} (hrd : ∀ a, rd (mk a) = a)
    (hc : Options.specErr (toOptions shape s) = none) (hs : Storable s) {k : ℤ}
    (hk : s.knots = .list [k]) (h0 : k ≠ 0) :
    ∃ s', roundTrip mk rd shape f32 s = .ok s' ∧ s'.knots = .int k ∧
      Equivalent f32 { s with knots := .int k } s' := by
  have ha : s.enableAks = false := by
    have := (specErr_tail hc).1
    simp only [toOptions, hk, Knots.toOptions, Options.knotsErr] at this
    simp at this
    exact this
  have := roundTrip_ok (mk := mk) (rd := rd) (shape := shape) (f32 := f32) hrd hc hs (by
    rw [hk, ha]
    simp [loadedKnots, Knots.toOptions, Options.knotsErr, h0])
  rw [hk] at this
  obtain ⟨s', h1, h2⟩ := this
  exact ⟨s', h1, h2.knots, h2⟩

/-- C43, violated: with one knot at the first time, the saved specification cannot be loaded. -/
theorem knot_at_zero_not_loadable {s : SpecSerde.Spec α} (hrd : ∀ a, rd (mk a) = a)
    (hc : Options.specErr (toOptions shape s) = none) (hs : Storable s)
    (hk : s.knots = .list [0]) :
    (∃ p, serialize mk f32 s = .ok p) ∧
      roundTrip mk rd shape f32 s = .error (.spec .knotsZero) := by
  have hg : ∀ k, s.baselineGeo = .int k → -2 ^ 31 ≤ k ∧ k < 2 ^ 31 := by
    intro k hk
    rcases hs.geo with ⟨k', h, h'⟩ | ⟨n, h⟩ | h
    · rw [h] at hk
      obtain rfl := Geo.int.inj hk
      exact h'
    · rw [h] at hk; simp at hk
    · rw [h] at hk; simp at hk
  have hR : roundTrip mk rd shape f32 s = .error (.spec .knotsZero) := by
    rw [roundTrip_eq hrd hc hs.maxLag hs.knotsInt hs.knotsList hg]
    obtain ⟨o', h1, h2⟩ := loadBaselines_save (f32 := f32) hs.baselines
    rw [h1]
    simp only
    rw [construct_eq hc]
    case h => exact ⟨rfl, rfl, rfl, rfl, rfl, rfl, rfl, rfl, rfl⟩
    simp [hk, loadedKnots, Knots.toOptions, Options.knotsErr]
  refine ⟨?_, hR⟩
  unfold roundTrip at hR
  cases hser : serialize mk f32 s with
  | ok p => exact ⟨p, rfl⟩
  | error e =>
    exfalso
    rw [hser] at hR
    simp only [Except.error.injEq] at hR
    subst hR
    unfold serialize at hser
    simp only [bind, Except.bind, pure, Except.pure] at hser
    have hconv : ∀ (c : Converter) o, c.toProto o ≠ .error (.spec .knotsZero) := by
      intro c o
      cases o with
      | none => simp [Converter.toProto]
      | some x =>
        unfold Converter.toProto
        simp only
        cases c.mapping.lookup x <;> simp
    have hlag : saveLag s.maxLag ≠ .error (.spec .knotsZero) := by
      cases s.maxLag with
      | none => simp [saveLag]
      | some k => unfold saveLag; simp only; split_ifs <;> simp
    have hkn : saveKnots s.knots ≠ .error (.spec .knotsZero) := by
      cases s.knots <;> unfold saveKnots <;> simp only <;> (try split_ifs) <;> simp
    have hge : saveGeo s.baselineGeo ≠ .error (.spec .knotsZero) := by
      cases s.baselineGeo <;> unfold saveGeo <;> simp only <;> (try split_ifs) <;> simp
    split at hser
    · rename_i e h; simp only [Except.error.injEq] at hser; subst hser; exact hconv _ _ h
    split at hser
    · rename_i e h; simp only [Except.error.injEq] at hser; subst hser; exact hconv _ _ h
    split at hser
    · rename_i e h; simp only [Except.error.injEq] at hser; subst hser; exact hconv _ _ h
    split at hser
    · rename_i e h; simp only [Except.error.injEq] at hser; subst hser; exact hconv _ _ h
    split at hser
    · rename_i e h; simp only [Except.error.injEq] at hser; subst hser; exact hconv _ _ h
    split at hser
    · rename_i e h; simp only [Except.error.injEq] at hser; subst hser; exact hconv _ _ h
    split at hser
    · rename_i e h; simp only [Except.error.injEq] at hser; subst hser; exact hconv _ _ h
    split at hser
    · rename_i e h; simp only [Except.error.injEq] at hser; subst hser; exact hlag h
    split at hser
    · rename_i e h; simp only [Except.error.injEq] at hser; subst hser; exact hkn h
    split at hser
    · rename_i e h; simp only [Except.error.injEq] at hser; subst hser; exact hge h
    simp at hser

/-- C43, violated: the loaded number `k` of knots is not what one knot at location `k` meant, for
`1 < k`: one knot has become `k` knots. -/
theorem one_location_meaning_changed {nTimes : ℕ} {k : ℤ} (hk : 1 < k) (hT : k < nTimes)
    (isNational : Bool) {a b : Verif.Knots.KnotInfo}
    (ha : Verif.Knots.getKnotInfo nTimes (Knots.list [k]).toArg isNational = .ok a)
    (hb : Verif.Knots.getKnotInfo nTimes (Knots.int k).toArg isNational = .ok b) :
    a.nKnots = 1 ∧ (b.nKnots : ℤ) = k := by
  constructor
  · simp only [Knots.toArg, Verif.Knots.getKnotInfo] at ha
    rw [if_pos (by simp), if_neg (by simp; omega), if_neg (by simp; omega)] at ha
    simp only [Verif.Knots.finish, List.length_singleton, if_true, Except.ok.injEq] at ha
    rw [← ha]
  · simp only [Knots.toArg, Verif.Knots.getKnotInfo] at hb
    rw [if_neg (by omega), if_neg (by omega)] at hb
    split_ifs at hb
    unfold Verif.Knots.finish at hb
    rw [if_neg (by omega)] at hb
    cases hw : Verif.Knots.l1DistanceWeights nTimes (Verif.Knots.equallySpaced nTimes k.toNat) with
    | error e => rw [hw] at hb; simp [Except.map] at hb
    | ok w =>
      rw [hw] at hb
      simp only [Except.map, Except.ok.injEq] at hb
      rw [← hb]
      simp only
      omega

/-- C43, violated: a baseline geo given as a numpy integer is not saved; the loaded model uses the
geo with the largest population. -/
theorem numpy_geo_lost {s s' : SpecSerde.Spec α} {k : ℤ} (hg : s.baselineGeo = .other k)
    (h : roundTrip mk rd shape f32 s = .ok s') : s'.baselineGeo = .none := by
  unfold roundTrip at h
  cases hp : serialize mk f32 s with
  | error e => rw [hp] at h; simp at h
  | ok p =>
    rw [hp] at h
    simp only at h
    have h1 : p.baselineGeo = none := by
      unfold serialize at hp
      rw [hg] at hp
      simp only [bind, Except.bind, pure, Except.pure, saveGeo] at hp
      repeat' split at hp
      all_goals first | (simp at hp; done) | (simp only [Except.ok.injEq] at hp; rw [← hp])
    unfold deserialize at h
    simp only [bind, Except.bind, construct] at h
    repeat' split at h
    all_goals first | (simp at h; done) | (simp only [Except.ok.injEq] at h; rw [← h, h1]; rfl)

theorem loadBases_unset {l : List ProtoBase} (h : .unset ∈ l) : ∃ e, loadBases l = .error e := by
  induction l with
  | nil => simp at h
  | cons b rest ih =>
    rcases List.mem_cons.1 h with e | hm
    · subst e
      exact ⟨_, rfl⟩
    · obtain ⟨e, he⟩ := ih hm
      unfold loadBases
      cases loadBase b with
      | error e => exact ⟨e, rfl⟩
      | ok x => rw [he]; exact ⟨e, rfl⟩

/-- C43, violated: a specification with a baseline value that is neither a Python number nor "min" or
"max" (such as a 32-bit numpy float) cannot be loaded. -/
theorem odd_baseline_not_loadable {s : SpecSerde.Spec α} {l : List Base}
    (hl : s.baselines = some l)
    (hb : ∃ b ∈ l, (∃ q, b = .other q) ∨ ∃ t, b = .str t ∧ t.toLower ≠ "min" ∧ t.toLower ≠ "max") :
    ∃ e, roundTrip mk rd shape f32 s = .error e := by
  obtain ⟨b, hm, hb⟩ := hb
  have hu : ProtoBase.unset ∈ l.map (saveBase f32) := by
    refine List.mem_map.2 ⟨b, hm, ?_⟩
    rcases hb with ⟨q, rfl⟩ | ⟨t, rfl, h1, h2⟩
    · rfl
    · simp [saveBase, h1, h2]
  unfold roundTrip
  cases hp : serialize mk f32 s with
  | error e => exact ⟨e, rfl⟩
  | ok p =>
    simp only
    have h1 : p.baselines = l.map (saveBase f32) := by
      unfold serialize at hp
      rw [hl] at hp
      simp only [bind, Except.bind, pure, Except.pure] at hp
      repeat' split at hp
      all_goals first | (simp at hp; done) | (simp only [Except.ok.injEq] at hp; rw [← hp]; rfl)
    obtain ⟨e, he⟩ := loadBases_unset hu
    have h2 : loadBaselines p.baselines = .error e := by
      rw [h1]
      cases hc : l.map (saveBase f32) with
      | nil => rw [hc] at hu; simp at hu
      | cons x y =>
        rw [hc] at he
        simp only [loadBaselines, he]
    refine ⟨e, ?_⟩
    unfold deserialize
    simp only [h2, bind, Except.bind]

/-- C43: choices of functions that count as the same give every channel the same decay function. -/
theorem same_choice_same_decay {a b : Choice} (h : SameChoice "geometric" a b) (c : Options.Channels)
    {sa sb : Options.FunSpec} (ha : Options.adstockDecaySpec c a = .ok sa)
    (hb : Options.adstockDecaySpec c b = .ok sb) :
    ∀ (l : List String) (i : ℕ), i < l.length →
      (c.media = some l → Options.funAt sa.media i = Options.funAt sb.media i) ∧
      (c.rf = some l → Options.funAt sa.rf i = Options.funAt sb.rf i) ∧
      (c.organicMedia = some l → Options.funAt sa.organicMedia i = Options.funAt sb.organicMedia i) ∧
      (c.organicRf = some l → Options.funAt sa.organicRf i = Options.funAt sb.organicRf i) := by
  rcases h with rfl | ⟨rfl, rfl⟩
  · rw [ha] at hb
    obtain rfl := Except.ok.inj hb
    intro l i _
    exact ⟨fun _ => rfl, fun _ => rfl, fun _ => rfl, fun _ => rfl⟩
  · have hA := Options.Props.decay_by_channel c (m := []) List.nodup_nil ha
    have hB := (Options.Props.decay_for_all c "geometric").2 sb hb
    have key : ∀ (chs : Option (List String)) (f : Options.Funs),
        Options.Spec.FunsRight [] "geometric" chs f → ∀ (l : List String) (i : ℕ), i < l.length →
          chs = some l → Options.funAt f i = some "geometric" := by
      intro chs f hf l i hi hl
      obtain ⟨v, h1, h2⟩ := hf l hl i l[i] (List.getElem?_eq_getElem hi)
      rcases h2 with h2 | ⟨_, rfl⟩
      · simp at h2
      · exact h1
    intro l i hi
    obtain ⟨b1, b2, b3, b4⟩ := hB i
    rw [b1, b2, b3, b4]
    exact ⟨key _ _ hA.1 l i hi, key _ _ hA.2.1 l i hi, key _ _ hA.2.2.1 l i hi,
      key _ _ hA.2.2.2 l i hi⟩

/-! ### A specification with most options set -/

/-- Arrays are lists of flags with their shape. -/
def specEx : SpecSerde.Spec (List ℕ × List Bool) where
  effects := "normal"
  maxLag := some 12
  mediaPrior := some "mroi"
  organicRfPrior := "coefficient"
  baselines := some [.str "Max", .num 2, .str "min"]
  knots := .list [0, 5, 11]
  baselineGeo := .str "Berlin"
  holdout := some ([12], List.replicate 12 false)
  adstock := .byChannel [("tv", "binomial")]
  saturation := .byChannel []

example : Options.specErr (toOptions Prod.fst specEx) = none := by decide

example : Storable specEx where
  maxLag := by intro k h; simp [specEx] at h; omega
  knotsInt := by intro k h; simp [specEx] at h
  knotsList := by
    intro l h k hk
    simp only [specEx, Knots.list.injEq] at h
    subst h
    simp at hk
    omega
  geo := Or.inr (Or.inl ⟨"Berlin", rfl⟩)
  adstock := by simp [specEx]
  baselines := by
    intro l h
    simp only [specEx, Option.some.injEq] at h
    subst h
    refine ⟨by simp, ?_⟩
    intro b hb
    simp only [List.mem_cons, List.not_mem_nil, or_false] at hb
    rcases hb with rfl | rfl | rfl
    · exact Or.inr ⟨_, rfl, Or.inr (by decide +kernel)⟩
    · exact Or.inl ⟨_, rfl⟩
    · exact Or.inr ⟨_, rfl, Or.inl (by decide +kernel)⟩

example : ((roundTrip id id Prod.fst id specEx).toOption.bind SpecSerde.Spec.baselines)
    = some [.str "max", .num 2, .str "min"] := by decide +kernel

/-- Witness: one knot at time 5 is loaded as five knots, of a hundred times. -/
example : ((roundTrip id id Prod.fst id { specEx with knots := .list [5] }).toOption.map
    SpecSerde.Spec.knots) = some (.int 5) := by decide +kernel

example : (Verif.Knots.getKnotInfo 12 (Knots.list [5]).toArg false).toOption.map (·.nKnots) = some 1 ∧
    (Verif.Knots.getKnotInfo 12 (Knots.int 5).toArg false).toOption.map (·.nKnots) = some 5 := by
  decide +kernel

end Verif.SpecSerde.Props
