import Verif.Lemmas.Lookup
import Verif.Props.Options

/-!
# C97: what is looked up for a channel is what belongs to it
-/

namespace Verif.Lookup.Props

open Verif.Lookup Verif.Lookup.Spec Verif.Lookup.Lemmas Verif.Transformers Verif.Options

/-- A media, a reach and an organic media channel, a non-media treatment and a control variable. -/
def demo : Inputs :=
  { geos := ["a", "b"], times := ["2024-01-01"], mediaTimes := ["2024-01-01"]
    population := fun g => if g = 0 then 2 else 4
    media := some ⟨["tv", "radio"], fun c _ _ => c + 1⟩
    rf := some ⟨["video"], fun _ _ _ => 8⟩
    organicMedia := some ⟨["news"], fun _ _ _ => 3⟩
    nonMedia := some ["price"]
    controls := some ["gqv"] }

/-- **C97.** The data is accepted exactly if there is a paid channel and no two channels or
non-media treatments, of whatever type, have the same name. -/
theorem names_accepted_iff (d : Inputs) :
    validateNames d = .ok () ↔ (d.media ≠ none ∨ d.rf ≠ none) ∧ Distinct d := by
  have hall : (d.media ≠ none ∨ d.rf ≠ none) → allNames d = .ok
      (namesOf d .media ++ namesOf d .rf ++ namesOf d .organicMedia ++ namesOf d .organicRf ++
      d.nonMedia.getD []) := by
    intro h
    unfold allNames paidChannels namesOf names block
    cases hm : d.media with
    | none =>
      cases hr : d.rf with
      | none => simp [hm, hr] at h
      | some r => simp [bind, Except.bind, pure, Except.pure]
    | some m => cases hr : d.rf <;> simp [bind, Except.bind, pure, Except.pure]
  rw [distinct_iff]
  by_cases h : d.media ≠ none ∨ d.rf ≠ none
  · rw [validateNames, hall h]
    simp only [bind, Except.bind]
    split_ifs with hl
    · refine ⟨fun e => by simp at e, fun e => absurd ?_ hl⟩
      rw [List.dedup_eq_self.2 e.2]
    · have : ∀ l : List String, ¬ l.dedup.length ≠ l.length → l.Nodup := fun l hl =>
        List.dedup_eq_self.1 ((List.dedup_sublist l).eq_of_length (not_not.1 hl))
      exact ⟨fun _ => ⟨h, this _ hl⟩, fun _ => rfl⟩
  · push Not at h
    simp [validateNames, allNames, paidChannels, names, h.1, h.2, bind, Except.bind]

example : validateNames demo = .ok () ∧
    validateNames { demo with nonMedia := some ["video"] } = .error .duplicate := by
  constructor <;> decide +kernel

theorem demo_distinct : Distinct demo := ((names_accepted_iff demo).1 (by decide +kernel)).2

/-- The block of a channel and the loop over the types. -/
private theorem factorLoop_found {d : Inputs} (hd : Distinct d) {k : Kind} {i : ℕ} {name : String}
    (hc : IsChannel d k i name) (o : Kind → Option (ℕ → ℕ → ℝ)) {s : ℕ → ℕ → ℝ}
    (ho : o k = some s) :
    factorLoop name [(names d.media, o .media), (names d.rf, o .rf),
      (names d.organicMedia, o .organicMedia), (names d.organicRf, o .organicRf)] =
      .ok fun g => s g i := by
  have hne : ∀ k', k' ≠ k → name ∉ namesOf d k' := by
    intro k' hk hm
    obtain ⟨i', hi'⟩ := mem_namesOf.1 hm
    exact hk (hd.channels k' k i' i name hi' hc).1
  have skip : ∀ k', k' ≠ k → ∀ rest, factorLoop name ((names (block d k'), o k') :: rest) =
      factorLoop name rest := by
    intro k' hk rest
    have h := hne k' hk
    unfold namesOf at h
    cases hb : names (block d k') with
    | none => simp [factorLoop]
    | some l =>
      rw [hb] at h
      cases o k' with
      | none => simp [factorLoop]
      | some s' =>
        rw [factorLoop, if_neg (by simpa using h)]
  have hit : ∀ rest, factorLoop name ((names (block d k), o k) :: rest) = .ok fun g => s g i := by
    intro rest
    have hm : name ∈ namesOf d k := mem_namesOf.2 ⟨i, hc⟩
    have hi := idxOf_of_channel hd hc
    unfold namesOf at hm hi
    cases hb : names (block d k) with
    | none => simp [hb] at hm
    | some l =>
      rw [hb] at hm hi
      simp only [Option.getD_some] at hm hi
      rw [ho, factorLoop, if_pos hm, hi]
  have e1 := skip .media
  have e2 := skip .rf
  have e3 := skip .organicMedia
  have e4 := skip .organicRf
  simp only [block] at e1 e2 e3 e4
  cases k with
  | media => exact hit _
  | rf =>
    rw [e1 (by decide)]
    exact hit _
  | organicMedia =>
    rw [e1 (by decide), e2 (by decide)]
    exact hit _
  | organicRf =>
    rw [e1 (by decide), e2 (by decide), e3 (by decide)]
    exact hit _

/-- **C97.** The scaling factor reported for a channel that is not also the name of a control
variable is, in each geo, its population times the median of the values per head of that channel
that are not zero. -/
theorem scaling_factor {d : Inputs} (hd : Distinct d) (hn : NoneEmpty d) {k : Kind} {i : ℕ}
    {name : String} (hc : IsChannel d k i name) (hctl : ¬ IsControl d name) {b : Block}
    (hb : block d k = some b) :
    ∃ f med, scalingFactor d name = .ok f ∧
      mediaMedian d.geos.length d.mediaTimes.length (b.volume i) d.population = some med ∧
      ∀ g, f g = d.population g * med := by
  have h1 : name ∉ d.nonMedia.getD [] := fun h => hd.apart k i name hc ((isNonMedia_iff ..).2 h)
  have h2 : name ∉ d.controls.getD [] := fun h => hctl ((isControl_iff ..).2 h)
  choose o ho hs using fun k => transformer_exists hn k
  obtain ⟨s, es, hmed⟩ := hs k b hb
  have hi : i < b.names.length := by
    obtain ⟨b', hb', e⟩ := hc
    rw [hb] at hb'
    cases hb'
    exact (List.getElem?_eq_some_iff.1 e).1
  obtain ⟨med, hm, hf⟩ := hmed i hi
  refine ⟨fun g => s g i, med, ?_, hm, hf⟩
  unfold scalingFactor
  rw [if_neg h1, if_neg h2]
  have o1 := ho .media
  have o2 := ho .rf
  have o3 := ho .organicMedia
  have o4 := ho .organicRf
  simp only [block] at o1 o2 o3 o4
  rw [o1, o2, o3, o4]
  exact factorLoop_found hd hc o es

/-- **C97.** Multiplying the values the model is fitted to by the reported factor gives back the
values of the data. -/
theorem factor_undoes_scaling {d : Inputs} (hd : Distinct d) (hn : NoneEmpty d) {k : Kind} {i : ℕ}
    {name : String} (hc : IsChannel d k i name) (hctl : ¬ IsControl d name) {b : Block}
    (hb : block d k = some b)
    (hvol : ∀ g < d.geos.length, ∀ t < d.mediaTimes.length, 0 ≤ b.volume i g t)
    (hpop : ∀ g < d.geos.length, 0 < d.population g) :
    ∃ f s, scalingFactor d name = .ok f ∧ scaled d b = .ok s ∧
      ∀ g < d.geos.length, 0 < f g ∧ ∀ t, f g * s i g t = b.volume i g t := by
  obtain ⟨f, med, h1, h2, h3⟩ := scaling_factor hd hn hc hctl hb
  have hi : i < b.names.length := by
    obtain ⟨b', hb', e⟩ := hc
    rw [hb] at hb'
    cases hb'
    exact (List.getElem?_eq_some_iff.1 e).1
  obtain ⟨ms, e1, e2⟩ := transformer_ok (hn k b hb)
  have hms : ms.getD i 0 = med := by
    have := e2 i hi
    rw [h2] at this
    exact (Option.some.inj this).symm
  have hmed : 0 < med := ((Transformers.Props.media_scale_correct d.geos.length
    d.mediaTimes.length (b.volume i) d.population).2 med h2).2.2.1 hvol fun g hg => (hpop g hg).le
  refine ⟨f, _, h1, by rw [scaled, e1]; rfl, fun g hg => ?_⟩
  have hp := hpop g hg
  have hfg : 0 < f g := by
    rw [h3]
    exact mul_pos hp hmed
  refine ⟨hfg, fun t => ?_⟩
  simp only [mediaForward, mediaScale, hms, h3]
  field_simp

theorem demo_nonempty : NoneEmpty demo := by
  intro k b hb i _
  refine ⟨0, by decide, 0, by decide, ?_, by norm_num [demo]⟩
  cases k <;> simp only [block, demo, Option.some.injEq] at hb
  · subst hb
    positivity
  · subst hb
    norm_num
  · subst hb
    norm_num
  · cases hb

example : ∃ f, scalingFactor demo "radio" = .ok f ∧ 0 < f 1 := by
  obtain ⟨f, s, h, -, h'⟩ := factor_undoes_scaling demo_distinct demo_nonempty (k := .media) (i := 1)
    (name := "radio") ⟨_, rfl, rfl⟩ (by simp [IsControl, demo]) rfl
    (fun g _ t _ => by positivity) (fun g hg => by
      simp only [demo]
      split <;> norm_num)
  exact ⟨f, h, (h' 1 (by decide)).1⟩

/-- **C97.** No factor is reported for a non-media treatment, for a control variable, or for a name
that is not in the data. -/
theorem factor_refused (d : Inputs) (name : String)
    (h : IsNonMedia d name ∨ IsControl d name ∨ ∀ k i, ¬ IsChannel d k i name) :
    ∃ e, scalingFactor d name = .error e := by
  unfold scalingFactor
  split_ifs with h1 h2
  · exact ⟨_, rfl⟩
  · exact ⟨_, rfl⟩
  rw [isNonMedia_iff, isControl_iff] at h
  have h := (h.resolve_left h1).resolve_left h2
  have hk : ∀ k, name ∉ namesOf d k := fun k hm => by
    obtain ⟨i, hi⟩ := mem_namesOf.1 hm
    exact h k i hi
  have skip : ∀ k (o : Option (ℕ → ℕ → ℝ)) rest,
      factorLoop name ((names (block d k), o) :: rest) = factorLoop name rest := by
    intro k o rest
    have h := hk k
    unfold namesOf at h
    cases hb : names (block d k) with
    | none => simp [factorLoop]
    | some l =>
      rw [hb] at h
      cases o with
      | none => simp [factorLoop]
      | some s' => rw [factorLoop, if_neg (by simpa using h)]
  have e1 := skip .media
  have e2 := skip .rf
  have e3 := skip .organicMedia
  have e4 := skip .organicRf
  simp only [block] at e1 e2 e3 e4
  simp only [e1, e2, e3, e4, factorLoop]
  cases transformer d d.media <;> cases transformer d d.rf <;>
    cases transformer d d.organicMedia <;> cases transformer d d.organicRf <;>
    exact ⟨_, rfl⟩

/-- **C97, not so for a channel that shares its name with a control variable.** Such data is
accepted, and the parameters of the channel are found, but its scaling factor is refused. -/
theorem control_shadows_channel : ∃ d : Inputs, validateNames d = .ok () ∧ NoneEmpty d ∧
    IsChannel d .media 0 "tv" ∧
    channelParameters d (.all "geometric") "tv" = .ok ⟨0, "m", "geometric", false⟩ ∧
    scalingFactor d "tv" = .error .control := by
  refine ⟨{ demo with controls := some ["tv"] }, by decide +kernel, ?_, ⟨_, rfl, rfl⟩,
    by decide +kernel, ?_⟩
  · intro k b hb i hi
    obtain ⟨g, hg, t, ht, h⟩ := demo_nonempty k b (by cases k <;> exact hb) i hi
    exact ⟨g, hg, t, ht, h⟩
  · simp [scalingFactor, demo]

/-- The decay functions of the type. -/
def decayOf (s : FunSpec) : Kind → Funs
  | .media => s.media
  | .rf => s.rf
  | .organicMedia => s.organicMedia
  | .organicRf => s.organicRf

private theorem paramsLoop_found {d : Inputs} (hd : Distinct d) {k : Kind} {i : ℕ} {name : String}
    (hc : IsChannel d k i name) (s : FunSpec) {v : String} (hv : funAt (decayOf s k) i = some v) :
    paramsLoop name
      [(names d.media, "m", s.media, false), (names d.rf, "rf", s.rf, true),
        (names d.organicMedia, "om", s.organicMedia, false),
        (names d.organicRf, "orf", s.organicRf, true)] = .ok ⟨i, suffix k, v, hasReach k⟩ := by
  have hne : ∀ k', k' ≠ k → name ∉ namesOf d k' := by
    intro k' hk hm
    obtain ⟨i', hi'⟩ := mem_namesOf.1 hm
    exact hk (hd.channels k' k i' i name hi' hc).1
  have skip : ∀ k', k' ≠ k → ∀ x rest, paramsLoop name ((names (block d k'), x) :: rest) =
      paramsLoop name rest := by
    intro k' hk x rest
    have h := hne k' hk
    unfold namesOf at h
    cases hb : names (block d k') with
    | none => simp [paramsLoop]
    | some l =>
      rw [hb] at h
      rw [paramsLoop, if_neg (by simpa using h)]
  have hit : ∀ rest, paramsLoop name
      ((names (block d k), suffix k, decayOf s k, hasReach k) :: rest) =
      .ok ⟨i, suffix k, v, hasReach k⟩ := by
    intro rest
    have hm : name ∈ namesOf d k := mem_namesOf.2 ⟨i, hc⟩
    have hi := idxOf_of_channel hd hc
    unfold namesOf at hm hi
    cases hb : names (block d k) with
    | none => simp [hb] at hm
    | some l =>
      rw [hb] at hm hi
      simp only [Option.getD_some] at hm hi
      rw [paramsLoop, if_pos hm, hi, hv]
  have e1 := skip .media
  have e2 := skip .rf
  have e3 := skip .organicMedia
  simp only [block] at e1 e2 e3
  cases k with
  | media => exact hit _
  | rf =>
    rw [e1 (by decide)]
    exact hit _
  | organicMedia =>
    rw [e1 (by decide), e2 (by decide)]
    exact hit _
  | organicRf =>
    rw [e1 (by decide), e2 (by decide), e3 (by decide)]
    exact hit _

/-- **C97.** With a decay function for all channels, the parameters found for a channel are its
position in its type, the suffix of its type, that function, and whether it has reach and
frequency. -/
theorem parameters_one_decay {d : Inputs} (hd : Distinct d) {k : Kind} {i : ℕ} {name : String}
    (hc : IsChannel d k i name) {f : String} (hf : f = "geometric" ∨ f = "binomial") :
    channelParameters d (.all f) name = .ok ⟨i, suffix k, f, hasReach k⟩ := by
  have : adstockDecaySpec (channels d) (.all f) = .ok ⟨.one f, .one f, .one f, .one f⟩ := by
    rcases hf with rfl | rfl <;> rfl
  rw [channelParameters, this]
  exact paramsLoop_found hd hc ⟨.one f, .one f, .one f, .one f⟩ (by cases k <;> rfl)

/-- **C97.** With decay functions by channel, the decay found for a channel is the one given under
its name, or the geometric one. -/
theorem parameters_by_channel {d : Inputs} (hd : Distinct d) {k : Kind} {i : ℕ} {name : String}
    (hc : IsChannel d k i name) {m : List (String × String)} (hm : Options.Spec.IsDict m)
    (hok : ∃ s, adstockDecaySpec (channels d) (.byChannel m) = .ok s) :
    ∃ v, Options.Spec.ValueOf m "geometric" name v ∧
      channelParameters d (.byChannel m) name = .ok ⟨i, suffix k, v, hasReach k⟩ := by
  obtain ⟨s, hs⟩ := hok
  obtain ⟨r1, r2, r3, r4⟩ := Options.Props.decay_by_channel (channels d) hm hs
  obtain ⟨b, hb, hi⟩ := hc
  have hv : ∃ v, funAt (decayOf s k) i = some v ∧ Options.Spec.ValueOf m "geometric" name v := by
    cases k with
    | media => exact r1 b.names (by simp only [block] at hb; simp [channels, names, hb]) i name hi
    | rf => exact r2 b.names (by simp only [block] at hb; simp [channels, names, hb]) i name hi
    | organicMedia =>
      exact r3 b.names (by simp only [block] at hb; simp [channels, names, hb]) i name hi
    | organicRf =>
      exact r4 b.names (by simp only [block] at hb; simp [channels, names, hb]) i name hi
  obtain ⟨v, hv, hv'⟩ := hv
  refine ⟨v, hv', ?_⟩
  rw [channelParameters, hs]
  exact paramsLoop_found hd ⟨b, hb, hi⟩ s hv

example : channelParameters demo (.byChannel [("radio", "binomial")]) "radio" =
      .ok ⟨1, "m", "binomial", false⟩ ∧
    channelParameters demo (.byChannel [("radio", "binomial")]) "video" =
      .ok ⟨0, "rf", "geometric", true⟩ := by
  constructor <;> decide +kernel

/-- **C97.** What is found belongs to a channel: a name that is no channel is refused, and the
position and suffix that are found are those of a channel of that name. -/
theorem parameters_only_channels {d : Inputs} {choice : Choice} {name : String} {p : Params}
    (h : channelParameters d choice name = .ok p) :
    ∃ k, IsChannel d k p.index name ∧ p.pre = suffix k ∧ p.isRf = hasReach k := by
  unfold channelParameters at h
  cases hs : adstockDecaySpec (channels d) choice with
  | error e =>
    rw [hs] at h
    cases h
  | ok s =>
    rw [hs] at h
    have step : ∀ k f rest, paramsLoop name
        ((names (block d k), suffix k, f, hasReach k) :: rest) = .ok p →
        (IsChannel d k p.index name ∧ p.pre = suffix k ∧ p.isRf = hasReach k) ∨
          paramsLoop name rest = .ok p := by
      intro k f rest h
      cases hb : block d k with
      | none =>
        rw [hb] at h
        exact .inr h
      | some b =>
        rw [hb] at h
        simp only [names, Option.map_some, paramsLoop] at h
        split_ifs at h with hm
        · cases hv : funAt f (b.names.idxOf name) with
          | none =>
            rw [hv] at h
            cases h
          | some v =>
            rw [hv] at h
            cases h
            refine .inl ⟨⟨b, hb, ?_⟩, rfl, rfl⟩
            rw [List.getElem?_eq_getElem (List.idxOf_lt_length_of_mem hm), List.getElem_idxOf]
        · exact .inr h
    rcases step .media _ _ h with h | h
    · exact ⟨_, h⟩
    rcases step .rf _ _ h with h | h
    · exact ⟨_, h⟩
    rcases step .organicMedia _ _ h with h | h
    · exact ⟨_, h⟩
    rcases step .organicRf _ _ h with h | h
    · exact ⟨_, h⟩
    cases h

/-- **C97.** The samples of a parameter for a channel are those at the position of the channel in
the tensor of the parameter of its type; the effects by geo are called without an underscore. -/
theorem tensor_right {ι α : Type} {d : Inputs} (hd : Distinct d) {k : Kind} {i : ℕ} {name : String}
    (hc : IsChannel d k i name) {f : String} (hf : f = "geometric" ∨ f = "binomial")
    (tensors : List (String × (ι → ℕ → α))) (base full : String) (x : ι → ℕ → α)
    (hfull : base = "beta_g" ∧ full = "beta_g" ++ suffix k ∨
      base ≠ "beta_g" ∧ full = base ++ "_" ++ suffix k) :
    (tensors.lookup full = some x →
      parameterTensor d (.all f) tensors base name = .ok fun j => x j i) ∧
    (tensors.lookup full = none →
      parameterTensor d (.all f) tensors base name = .error .noParameter) := by
  have hn : fullName base (suffix k) = full := by
    rcases hfull with ⟨h, rfl⟩ | ⟨h, rfl⟩
    · subst h
      rw [fullName, if_pos rfl]
    · rw [fullName, if_neg h]
  unfold parameterTensor
  rw [parameters_one_decay hd hc hf]
  simp only [bind, Except.bind, hn]
  constructor <;> intro h <;> rw [h] <;> rfl

example : (match parameterTensor (ι := Unit) demo (.all "geometric")
      [("alpha_rf", fun _ c => 10 + c), ("alpha_m", fun _ c => 20 + c)] "alpha" "radio" with
    | .ok x => x () == 21
    | .error _ => false) = true := by decide +kernel

/-- **C97.** The label of the position found for a channel, along the dimension of its type, is the
name of the channel. -/
theorem label_agrees {d : Inputs} {choice : Choice} {name : String} {p : Params}
    (h : channelParameters d choice name = .ok p) (nKnots nChains nDraws : ℕ) :
    ∃ k l, p.pre = suffix k ∧ (coords d nKnots nChains nDraws).lookup (channelDim k) = some l ∧
      l[p.index]? = some (.name name) := by
  obtain ⟨k, ⟨b, hb, hi⟩, hp, -⟩ := parameters_only_channels h
  refine ⟨k, b.names.map .name, hp, ?_, by simp [hi]⟩
  cases k <;> simp only [block] at hb <;>
    simp [coords, channelDim, List.lookup, names, hb]

/-- **C97.** The samples of each parameter of the channels of a type have a chain, a draw and the
channels of that type; the effects by geo have the geos as well; the residual's deviation has the
geos exactly if each geo has its own. -/
theorem dims_right (uniqueSigma : Bool) (k : Kind) :
    (∀ base ∈ bases k, (dims uniqueSigma).lookup (base ++ "_" ++ suffix k) =
      some ["chain", "draw", channelDim k]) ∧
    (dims uniqueSigma).lookup ("beta_g" ++ suffix k) =
      some ["chain", "draw", "geo", channelDim k] ∧
    (dims uniqueSigma).lookup "sigma" =
      some (if uniqueSigma then ["chain", "draw", "geo"] else ["chain", "draw"]) := by
  cases k <;> cases uniqueSigma <;> decide +kernel

/-- **C97.** Every dimension of every parameter has labels, of which there are as many as chains,
draws, knots, geos, times and names. -/
theorem dims_labelled (d : Inputs) (nKnots nChains nDraws : ℕ) (uniqueSigma : Bool) :
    (∀ p ds, (p, ds) ∈ dims uniqueSigma → ∀ x ∈ ds, ∃ l,
      (coords d nKnots nChains nDraws).lookup x = some l) ∧
    (∀ l, (coords d nKnots nChains nDraws).lookup "chain" = some l →
      l = (List.range nChains).map .num) ∧
    (∀ l, (coords d nKnots nChains nDraws).lookup "draw" = some l →
      l = (List.range nDraws).map .num) ∧
    (∀ l, (coords d nKnots nChains nDraws).lookup "knots" = some l →
      l = (List.range nKnots).map .num) ∧
    (∀ l, (coords d nKnots nChains nDraws).lookup "geo" = some l → l = d.geos.map .name) ∧
    (∀ l, (coords d nKnots nChains nDraws).lookup "time" = some l → l = d.times.map .name) ∧
    (∀ l, (coords d nKnots nChains nDraws).lookup "media_time" = some l →
      l = d.mediaTimes.map .name) ∧
    (∀ l, (coords d nKnots nChains nDraws).lookup "control_variable" = some l →
      l = (d.controls.getD []).map .name) ∧
    (∀ l, (coords d nKnots nChains nDraws).lookup "non_media_channel" = some l →
      l = (d.nonMedia.getD []).map .name) := by
  refine ⟨?_, ?_⟩
  · have hall : ∀ u, ∀ q ∈ dims u, ∀ x ∈ q.2,
        x ∈ ["chain", "draw", "geo", "time", "knots", "control_variable", "non_media_channel",
          "media_channel", "rf_channel", "organic_media_channel", "organic_rf_channel"] := by
      decide +kernel
    intro p ds h x hx
    have := hall uniqueSigma (p, ds) h x hx
    simp only [List.mem_cons, List.not_mem_nil, or_false] at this
    rcases this with rfl | rfl | rfl | rfl | rfl | rfl | rfl | rfl | rfl | rfl | rfl <;>
      exact ⟨_, by simp [coords, List.lookup]; rfl⟩
  · simp [coords, List.lookup, eq_comm]

/-- **C97.** No parameter occurs twice among the dimensions. -/
theorem dims_once (uniqueSigma : Bool) : ((dims uniqueSigma).map Prod.fst).Nodup := by
  cases uniqueSigma <;> decide +kernel

/-- **C97.** Asking for the `n` largest geos gives `n` geos of the data (all if there are fewer),
none twice, in falling order, and none that was left out is larger than one of them. -/
theorem top_geos (geos : List (String × ℚ)) (n : ℕ) :
    ∃ top rest : List (String × ℚ), (top ++ rest).Perm geos ∧
      topGeos geos n = top.map Prod.fst ∧ top.length = min n geos.length ∧
      (top ++ rest).Pairwise fun a b => b.2 ≤ a.2 := by
  refine ⟨(sortByPop geos).take n, (sortByPop geos).drop n, ?_, ?_, ?_, ?_⟩
  · rw [List.take_append_drop]
    exact sortByPop_perm geos
  · simp [topGeos, List.map_take]
  · rw [List.length_take, (sortByPop_perm geos).length_eq]
  · rw [List.take_append_drop]
    exact sortByPop_sorted geos

example : topGeos [("a", 1), ("b", 5), ("c", 3)] 2 = ["b", "c"] := by decide +kernel

/-- **C97, not so for a negative number**, which is accepted: all geos but the smallest ones are
returned. -/
theorem negative_top_geos (geos : List (String × ℚ)) (n : ℕ) (hn : 0 < n) :
    topGeos geos (-n) = topGeos geos ((geos.length - n : ℕ) : ℤ) := by
  have h : ¬ (0 : ℤ) ≤ -(n : ℤ) := by omega
  unfold topGeos
  simp only [if_neg h]
  simp [(sortByPop_perm geos).length_eq]

example : topGeos [("a", 1), ("b", 5), ("c", 3)] (-1) = ["b", "c"] := by decide +kernel

end Verif.Lookup.Props
