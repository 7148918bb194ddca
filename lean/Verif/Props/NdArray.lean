import Verif.Lemmas.NdArray

/-!
# Input data from arrays without labels
-/

namespace Verif.NdArray.Props

open Verif Verif.Builder Verif.Builder.Props Verif.NdArray.Wanted

variable {κ : Type} [LinearOrder κ]

private theorem complete_eq {kt : String} {p : Plan} (h : ((p.arrays kt).map Given.comp).Nodup)
    (hp : p.labels.length ≠ 1 → ∃ nd, .population nd ∈ p.calls) : ∃ a, Eff kt p a ∧ a.comp = .population := by
  by_cases hl : p.labels.length = 1
  · exact ⟨onesGiven p, .inr ⟨hl, rfl⟩, rfl⟩
  · obtain ⟨nd, hnd⟩ := hp hl
    exact ⟨⟨.population, nd, []⟩, .inl ⟨mem_arrays.2 ⟨_, hnd, by simp [arrays]⟩, fun x => hl x.2⟩, rfl⟩

private theorem toInput_component {kt : String} {b : Comp → Option DA} {k q : DA} (hk : b .kpi = some k)
    (hq : b .population = some q) (c : Comp) : component (toInput kt k q b) c = (b c).map (toArr c) := by
  cases c <;> simp [component, toInput, hk, hq]

/-- What a session does. -/
private theorem session_iff (env : Env κ) (kt : String) (p : Plan) (d : InputData.Input) :
    session env kt p.ops = .ok d ↔ Coords env p ∧ (∀ a ∈ p.arrays kt, ArrayOk env p a) ∧
      ((p.arrays kt).map Given.comp).Nodup ∧ (p.labels.length = 1 → p.labels = [nationalGeo]) ∧
      (∃ nd, .kpi nd ∈ p.calls) ∧ (p.labels.length ≠ 1 → ∃ nd, .population nd ∈ p.calls) ∧
      ((∃ m s chs, .media m s chs ∈ p.calls) ∨ ∃ r f s chs, .reach r f s chs ∈ p.calls) ∧
      ∃ d0 : InputData.Input, (∀ c, component d0 c = outOf env kt p c) ∧ d0.kpiType = kt ∧
        InputData.validate env.isDate env.regular d0 = .ok d := by
  unfold session
  constructor
  · intro h
    cases hr : run env kt p.ops St.init with
    | error e => simp only [hr] at h; cases h
    | ok s =>
      simp only [hr] at h
      obtain ⟨hc, hr⟩ := (coords_run env kt p s).1 hr
      obtain ⟨h1, h2, h3, rfl⟩ := (calls_run hc kt p.calls [] s).1 hr
      rw [List.append_nil] at h
      have hne : p.calls ≠ [] := by
        rintro he
        have : p.arrays kt = [] := by simp [Plan.arrays, he]
        simp only [build, he, List.reverse_nil] at h
        have hrq : required (st kt p []) = .error .kpiRequired := by simp [required, st]
        simp only [Builder.build, hrq] at h
        cases h
      have hok : ∀ a ∈ p.arrays kt, ArrayOk env p a := fun a ha => (h1 a ha).1
      have hnd : ((p.arrays kt).map Given.comp).Nodup := h2
      rcases base_build hc hnd hne with ⟨hcm, hb⟩ | ⟨-, e, hb⟩
      · obtain ⟨k1, k2, k3⟩ := (complete_iff hnd).1 hcm
        refine ⟨hc, hok, hnd, h3 hne, k1, k2, k3, ?_⟩
        simp only [build, hb] at h
        cases hk : result env kt p .kpi with
        | none => simp only [hk] at h; cases h
        | some k =>
          cases hq : result env kt p .population with
          | none => simp only [hk, hq] at h; cases h
          | some q =>
            simp only [hk, hq] at h
            refine ⟨toInput kt k q (result env kt p), fun c => toInput_component hk hq c, rfl, ?_⟩
            cases hv : InputData.validate env.isDate env.regular (toInput kt k q (result env kt p)) with
            | error e => simp only [hv] at h; cases h
            | ok d' => simp only [hv] at h; cases h; rfl
      · simp only [build, hb] at h; cases h
  · rintro ⟨hc, hok, hnd, h3, k1, k2, k3, d0, hd0, hkt, hv⟩
    have hne : p.calls ≠ [] := by
      obtain ⟨nd, h⟩ := k1
      rintro he
      rw [he] at h; cases h
    have hr : run env kt p.ops St.init = .ok (st kt p p.calls.reverse) := by
      refine (coords_run env kt p _).2 ⟨hc, (calls_run hc kt p.calls [] _).2 ⟨fun a ha => ⟨hok a ha, by simp⟩, hnd,
        fun _ => h3, by simp⟩⟩
    simp only [hr]
    rcases base_build hc hnd hne with ⟨-, hb⟩ | ⟨hcm, -⟩
    · obtain ⟨nd, hnd'⟩ := k1
      have hke : outOf env kt p .kpi = some (out env p ⟨.kpi, nd, []⟩) :=
        (outOf_eff hnd _ _).2 ⟨_, .inl ⟨mem_arrays.2 ⟨_, hnd', by simp [arrays]⟩, by simp⟩, rfl, rfl⟩
      obtain ⟨a, ha, hac⟩ := complete_eq hnd k2
      have hpe : outOf env kt p .population = some (out env p a) := (outOf_eff hnd _ _).2 ⟨a, ha, hac, rfl⟩
      cases hk : result env kt p .kpi with
      | none => rw [outOf, hk] at hke; cases hke
      | some k =>
        cases hq : result env kt p .population with
        | none => rw [outOf, hq] at hpe; cases hpe
        | some q =>
          have e : toInput kt k q (result env kt p) = d0 := by
            have hcomp : ∀ c, component (toInput kt k q (result env kt p)) c = component d0 c := fun c => by
              rw [toInput_component hk hq, hd0]; rfl
            have hkt' : (toInput kt k q (result env kt p)).kpiType = d0.kpiType := hkt.symm
            generalize toInput kt k q (result env kt p) = x at hcomp hkt' ⊢
            have c1 := hcomp .kpi; have c2 := hcomp .controls; have c3 := hcomp .population
            have c4 := hcomp .revenuePerKpi; have c5 := hcomp .media; have c6 := hcomp .mediaSpend
            have c7 := hcomp .reach; have c8 := hcomp .frequency; have c9 := hcomp .rfSpend
            have c10 := hcomp .organicMedia; have c11 := hcomp .organicReach; have c12 := hcomp .organicFrequency
            have c13 := hcomp .nonMedia
            cases x; cases d0
            simp only [component, Option.some.injEq] at c1 c2 c3 c4 c5 c6 c7 c8 c9 c10 c11 c12 c13 hkt'
            subst c1 c2 c3 c4 c5 c6 c7 c8 c9 c10 c11 c12 c13 hkt'
            rfl
          simp only [build, hb, hk, hq, e, hv]
    · exact absurd ((complete_iff hnd).2 ⟨k1, k2, k3⟩) hcm

/-- A session leads to input data exactly if the labels and the arrays are as described. -/
theorem accepted_iff (env : Env κ) (kpiType : String) (p : Plan) (hord : DatesOrdered env p) :
    (∃ d, session env kpiType p.ops = .ok d) ↔ Acceptable env kpiType p := by
  simp only [session_iff, InputData.Props.accepted_iff]
  constructor
  · rintro ⟨d, hc, hok, hnd, h3, k1, k2, k3, d0, hd0, hkt, hcons, -⟩
    obtain ⟨c1, c2, c3, c4, c5, c6⟩ := (consistent_iff hc hok hnd k1 k3 hord hd0 hkt).1 hcons
    refine ⟨hc.geos, h3, hc.times, hc.media, ?_, ⟨hc.regular, hc.regularMedia⟩, hc.lagged, hnd,
      fun a ha => ⟨(hok a ha).1, (hok a ha).2.1⟩, k1, k2, k3, c1, c2, c3, c4, c5, c6⟩
    rintro t (ht | ht)
    · obtain ⟨nd, h⟩ := k1
      exact (hok ⟨.kpi, nd, []⟩ (mem_arrays.2 ⟨_, h, by simp [arrays]⟩)).2.2 (by simp) t (by simpa [Plan.timesOf] using ht)
    · rcases k3 with ⟨m, s, l, h⟩ | ⟨r, f, s, l, h⟩
      · exact (hok ⟨.media, m, l⟩ (mem_arrays.2 ⟨_, h, by simp [arrays]⟩)).2.2 (by simp) t (by simpa [Plan.timesOf] using ht)
      · exact (hok ⟨.reach, r, l⟩ (mem_arrays.2 ⟨_, h, by simp [arrays]⟩)).2.2 (by simp) t (by simpa [Plan.timesOf] using ht)
  · intro h
    have hc : Coords env p := ⟨h.geosOnce, h.timesOnce, h.mediaTimesOnce, h.regular.1, h.regular.2, h.lagged⟩
    have hok : ∀ a ∈ p.arrays kpiType, ArrayOk env p a := fun a ha => ⟨(h.shapes a ha).1, (h.shapes a ha).2, fun _ t ht => by
      refine h.dates t ?_
      unfold Plan.timesOf at ht
      split_ifs at ht
      · exact .inr ht
      · exact .inl ht⟩
    obtain ⟨nd, hnd'⟩ := h.kpi
    have hke : outOf env kpiType p .kpi = some (out env p ⟨.kpi, nd, []⟩) :=
      (outOf_eff h.once _ _).2 ⟨_, .inl ⟨mem_arrays.2 ⟨_, hnd', by simp [arrays]⟩, by simp⟩, rfl, rfl⟩
    obtain ⟨a, ha, hac⟩ := complete_eq h.once h.population
    have hpe : outOf env kpiType p .population = some (out env p a) := (outOf_eff h.once _ _).2 ⟨a, ha, hac, rfl⟩
    obtain ⟨k, hk, -⟩ := Option.map_eq_some_iff.1 hke
    obtain ⟨q, hq, -⟩ := Option.map_eq_some_iff.1 hpe
    refine ⟨_, hc, hok, h.once, h.national, h.kpi, h.population, h.paid, toInput kpiType k q (result env kpiType p),
      fun c => toInput_component hk hq c, rfl, ?_, rfl⟩
    exact (consistent_iff hc hok h.once h.kpi h.paid hord (fun c => toInput_component hk hq c) rfl).2
      ⟨h.noOrganicReach, h.kind, h.numbers, h.nonNegative, h.revenue, h.channelsOnce⟩

/-- What the input data hold: every array that was handed over, its values moved to the natural order of the
geos and the order of the dates; nothing else but the population of a national model and a revenue per KPI
of one. -/
theorem arrays_exact (env : Env κ) (kpiType : String) (p : Plan) (hord : DatesOrdered env p) {d : InputData.Input}
    (h : session env kpiType p.ops = .ok d) :
    d.kpiType = kpiType ∧ ∃ G T M : List String,
      (G.Perm p.labels ∧ G.Pairwise fun a b => env.natKey a ≤ env.natKey b) ∧
      (T.Perm p.times ∧ T.Pairwise (· < ·)) ∧ (M.Perm p.mediaTimes ∧ M.Pairwise (· < ·)) ∧
      (∀ a, p.Used kpiType a → ¬ (a.comp = .revenuePerKpi ∧ kpiType = "revenue") → ∃ r, component d a.comp = some r ∧
        Holds p G (if timeName a.comp = "media_time" then M else T) a r) ∧
      (p.labels.length = 1 → d.population.coord "geo" = ["national_geo"] ∧ d.population.vals = [some 1]) ∧
      (kpiType = "revenue" → d.revenuePerKpi = some (InputData.Spec.ones d.kpi)) ∧
      ∀ c, component d c ≠ none → c = .population ∨ (c = .revenuePerKpi ∧ kpiType = "revenue") ∨
        ∃ a ∈ p.arrays kpiType, a.comp = c := by
  have hacc := (accepted_iff env kpiType p hord).1 ⟨d, h⟩
  obtain ⟨hc, hok, hnd, h3, k1, k2, k3, d0, hd0, hkt, hv⟩ := (session_iff env kpiType p d).1 h
  obtain ⟨-, rfl⟩ := (InputData.Props.accepted_iff _ _ _ _).1 hv
  have hnf : ∀ a ∈ p.arrays kpiType, a.comp ≠ .organicFrequency := by
    intro a ha h
    obtain ⟨x, hx, hax⟩ := mem_arrays.1 ha
    obtain ⟨r, f, l, rfl⟩ := (comp_call kpiType x .organicFrequency).1 ⟨a, hax, h⟩
    exact hacc.noOrganicReach _ _ _ hx
  have hukt : (InputData.Spec.used d0).kpiType = kpiType := by
    unfold InputData.Spec.used; split_ifs <;> exact hkt
  have hkpi : (InputData.Spec.used d0).kpi = d0.kpi := by
    unfold InputData.Spec.used; split_ifs <;> rfl
  have strict : ∀ u : List String, u.Nodup → (∀ a ∈ u, a ∈ p.times ∨ a ∈ p.mediaTimes) →
      (natsorted env u).Pairwise (· < ·) := by
    intro u hu hm
    have h1 := natsorted_sorted env u
    have h2 : (natsorted env u).Nodup := (natsorted_perm env u).nodup_iff.2 hu
    refine List.Pairwise.imp_of_mem ?_ (h1.and h2)
    intro a c ha hc hac
    rcases lt_trichotomy a c with h3 | h3 | h3
    · exact h3
    · exact absurd h3 hac.2
    · have := hord c a (hm c ((natsorted_perm env u).mem_iff.1 hc)) (hm a ((natsorted_perm env u).mem_iff.1 ha)) h3
      exact absurd hac.1 (not_le.2 this)
  refine ⟨hukt, natsorted env p.labels, natsorted env p.times, natsorted env p.mediaTimes,
    ⟨natsorted_perm _ _, natsorted_sorted _ _⟩, ⟨natsorted_perm _ _, strict _ hc.times fun a ha => .inl ha⟩,
    ⟨natsorted_perm _ _, strict _ hc.media fun a ha => .inr ha⟩, ?_, ?_, ?_, ?_⟩
  · intro a ha hr
    have hcd : component (InputData.Spec.used d0) a.comp = some (out env p a) := by
      rw [component_used, hkt, if_neg hr, hd0, outOf_eff hnd]
      exact ⟨a, .inl ha, rfl, rfl⟩
    refine ⟨_, hcd, ?_⟩
    have e : natsorted env (p.timesOf a.comp) =
        if timeName a.comp = "media_time" then natsorted env p.mediaTimes else natsorted env p.times := by
      unfold Plan.timesOf timeName
      split_ifs <;> simp_all
    rw [← e]
    exact out_holds (hok a ha.1).2.1 (hnf a ha.1)
  · intro hl
    have hcd : component (InputData.Spec.used d0) .population = some (out env p (onesGiven p)) := by
      rw [component_used, if_neg (by simp), hd0, outOf_eff hnd]
      exact ⟨onesGiven p, .inr ⟨hl, rfl⟩, rfl, rfl⟩
    simp only [component, Option.some.injEq] at hcd
    have hh := out_holds (env := env) (p := p) (a := onesGiven p) List.nodup_nil (by simp [onesGiven])
    rw [hcd]
    have hG : natsorted env p.labels = ["national_geo"] := by
      rw [h3 hl]; rfl
    refine ⟨?_, ?_⟩
    · have := hh.coords ("geo", natsorted env p.labels) (axes_geo _ _ _ _)
      simpa [hG] using this
    · rw [hh.values, hG]; simp [onesGiven]
  · intro hr
    have := component_used d0 .revenuePerKpi
    rw [hkt, if_pos ⟨rfl, hr⟩] at this
    rw [hkpi]; exact this
  · intro c hcn
    by_cases hcr : c = .revenuePerKpi ∧ kpiType = "revenue"
    · exact .inr (.inl hcr)
    · rw [component_used, hkt, if_neg hcr, hd0] at hcn
      obtain ⟨r, hr⟩ := Option.ne_none_iff_exists'.1 hcn
      obtain ⟨a, ha | ⟨-, rfl⟩, hac, -⟩ := (outOf_eff hnd c r).1 hr
      · exact .inr (.inr ⟨a, ha.1, hac⟩)
      · exact .inl hac.symm

/-- The order in which the arrays are handed over makes no difference. -/
theorem order_irrelevant (env : Env κ) (kpiType : String) (p : Plan) {calls : List Call} (h : p.calls.Perm calls)
    (d : InputData.Input) :
    session env kpiType p.ops = .ok d ↔ session env kpiType ({ p with calls := calls } : Plan).ops = .ok d := by
  rw [session_iff, session_iff]
  have hm : ∀ a, a ∈ p.arrays kpiType ↔ a ∈ ({ p with calls := calls } : Plan).arrays kpiType := by
    intro a
    rw [mem_arrays, mem_arrays]
    simp only [h.mem_iff]
  have hp : (p.arrays kpiType).Perm (({ p with calls := calls } : Plan).arrays kpiType) :=
    List.Perm.flatMap_right _ h
  have hc : Coords env p ↔ Coords env { p with calls := calls } :=
    ⟨fun h => ⟨h.1, h.2, h.3, h.4, h.5, h.6⟩, fun h => ⟨h.1, h.2, h.3, h.4, h.5, h.6⟩⟩
  refine and_congr hc (and_congr ?_ ?_)
  · constructor
    · intro h a ha; exact h a ((hm a).2 ha)
    · intro h a ha; exact h a ((hm a).1 ha)
  refine Iff.trans (and_congr_left' (hp.map Given.comp).nodup_iff) (and_congr_right fun hn => ?_)
  have hn' : ((p.arrays kpiType).map Given.comp).Nodup := (hp.map Given.comp).nodup_iff.2 hn
  have ho : outOf env kpiType p = outOf env kpiType { p with calls := calls } := by
    funext c
    refine Option.ext fun r => ?_
    rw [outOf_eff hn', outOf_eff hn]
    refine exists_congr fun a => and_congr_left' ?_
    unfold Eff Plan.Used
    rw [hm]; rfl
  rw [ho]
  simp only [h.mem_iff]
  rfl

private theorem setGeos_comps {s s' : St} {v : List String} (h : setGeos s v = .ok s') : s'.comps = s.comps := by
  unfold setGeos at h
  split_ifs at h
  cases h; rfl

omit [LinearOrder κ] in
private theorem needAll_comps : ∀ (ks : List TimeKind) {s s' : St}, needAll ks s = .ok s' → s'.comps = s.comps
  | [], s, s', h => by cases h; rfl
  | k :: ks, s, s', h => by
    rw [needAll] at h
    cases hk : needCoords k s with
    | error e => simp only [hk] at h; cases h
    | ok s1 =>
      simp only [hk] at h
      rw [needAll_comps ks h]
      unfold needCoords at hk
      split at hk
      · cases hk
      · cases hk
      · split at hk
        · cases hk; rfl
        · cases hs : setGeos s [nationalGeo] with
          | error e => simp only [hs] at hk; cases hk
          | ok s2 => simp only [hs] at hk; cases hk; exact setGeos_comps hs

omit [LinearOrder κ] in
private theorem setAll_comps (env : Env κ) (chs : Option (List String)) : ∀ (l : List (Comp × Nd)) {s s' : St},
    setAll env chs l s = .ok s' →
      (∀ c, (s.comps c).isSome = true → (s'.comps c).isSome = true) ∧ ∀ x ∈ l, (s'.comps x.1).isSome = true
  | [], s, s', h => by cases h; exact ⟨fun _ h => h, by simp⟩
  | x :: l, s, s', h => by
    rw [setAll] at h
    rcases set_cases env (x.1, label x.1 chs x.2 s) s with ⟨-, hs⟩ | ⟨-, e, s1, hs⟩
    · simp only [hs] at h
      obtain ⟨h1, h2⟩ := setAll_comps env chs l h
      refine ⟨fun c hc => h1 c ?_, ?_⟩
      · simp only [after]; split_ifs
        · rfl
        · exact hc
      · intro y hy
        rcases List.mem_cons.1 hy with rfl | hy
        · exact h1 _ (by simp [after])
        · exact h2 y hy
    · simp only [hs] at h; cases h

omit [LinearOrder κ] in
private theorem add_comps {env : Env κ} {needs : List TimeKind} {chs : Option (List String)} {parts : List (Comp × Nd)}
    {s s' : St} (h : add env needs chs parts s = .ok s') :
    (∀ c, (s.comps c).isSome = true → (s'.comps c).isSome = true) ∧ ∀ x ∈ parts, (s'.comps x.1).isSome = true := by
  unfold add at h
  cases hn : needAll needs s with
  | error e => simp only [hn] at h; cases h
  | ok s1 =>
    simp only [hn] at h
    cases hs : checkShapes chs s1 parts with
    | error e => simp only [hs] at h; cases h
    | ok _ =>
      simp only [hs] at h
      have := setAll_comps env chs parts h
      rw [needAll_comps _ hn] at this
      exact this

omit [LinearOrder κ] in
private theorem step_comps {env : Env κ} {kt : String} {o : Op} {s s' : St} (h : step env kt o s = .ok s') (c : Comp)
    (hc : (s.comps c).isSome = true) : (s'.comps c).isSome = true := by
  cases o with
  | geos l =>
    rw [setGeos_comps (lift_ok.1 h)]; exact hc
  | times l =>
    have h := lift_ok.1 h
    unfold setTimes at h
    split_ifs at h
    cases h; exact hc
  | mediaTimes l =>
    have h := lift_ok.1 h
    unfold setMediaTimes at h
    split_ifs at h
    cases h; exact hc
  | call x =>
    cases x <;> exact (add_comps h).1 c hc

omit [LinearOrder κ] in
private theorem run_organic {env : Env κ} {kt : String} {r f : Nd} {chs : List String} : ∀ (ops : List Op) {s s' : St},
    run env kt ops s = .ok s' → ((s.comps .organicFrequency).isSome = true ∨ .call (.organicReach r f chs) ∈ ops) →
    (s'.comps .organicFrequency).isSome = true
  | [], s, s', h, hm => by cases h; simpa using hm
  | o :: ops, s, s', h, hm => by
    rw [run] at h
    cases hs : step env kt o s with
    | error e => simp only [hs] at h; cases h
    | ok s1 =>
      simp only [hs] at h
      refine run_organic (r := r) (f := f) (chs := chs) ops h ?_
      rcases hm with hm | hm
      · exact .inl (step_comps hs _ hm)
      · rcases List.mem_cons.1 hm with rfl | hm
        · exact .inl ((add_comps (show add env [.mediaTime] (some chs) [(.organicReach, r), (.organicFrequency, f)] s =
            .ok s1 from hs)).2 (.organicFrequency, f) (by simp))
        · exact .inr hm

/-- Organic reach and frequency can never be used: whatever else a session does, and in whatever order, the
array of the organic frequency is named `organic_reach`, and the input data refuse it. -/
theorem organic_never_builds (env : Env κ) (kpiType : String) (ops : List Op) (r f : Nd) (chs : List String)
    (h : .call (.organicReach r f chs) ∈ ops) (d : InputData.Input) : session env kpiType ops ≠ .ok d := by
  intro hs
  unfold session at hs
  cases hr : run env kpiType ops St.init with
  | error e => simp only [hr] at hs; cases hs
  | ok s =>
    simp only [hr] at hs
    have ho := run_organic ops hr (.inr h)
    unfold build at hs
    cases hb : Builder.build env s with
    | error e => simp only [hb] at hs; cases hs
    | ok x =>
      simp only [hb] at hs
      have hx : (x.1 .organicFrequency).isSome = true := by
        unfold Builder.build at hb
        cases hq : required s with
        | error e => simp only [hq] at hb; cases hb
        | ok s1 =>
          have hs1 : s1.comps .organicFrequency = s.comps .organicFrequency := by
            unfold required at hq
            split_ifs at hq
            split at hq
            · cases hq
            · split at hq
              · cases hq
              · cases hq; exact withPopulation_comps (by simp)
          simp only [hq] at hb
          split at hb
          · split_ifs at hb
            cases hb
            simp only [Option.isSome_map, hs1, ho]
          · cases hb
      obtain ⟨y, hy⟩ := Option.isSome_iff_exists.1 hx
      split at hs
      · rename_i k q _ _
        cases hv : InputData.validate env.isDate env.regular (toInput kpiType k q x.1) with
        | error e => simp only [hv] at hs; cases hs
        | ok d' =>
          obtain ⟨hcons, -⟩ := (InputData.Props.accepted_iff _ _ _ _).1 hv
          have hof : (toInput kpiType k q x.1).organicFrequency = some (toArr .organicFrequency y) := by
            simp [toInput, hy]
          have hu : (InputData.Spec.used (toInput kpiType k q x.1)).organicFrequency =
              (toInput kpiType k q x.1).organicFrequency := by
            unfold InputData.Spec.used; split_ifs <;> rfl
          have := (hcons.shape ((toInput kpiType k q x.1).organicFrequency, "organic_frequency",
            [["geo", "media_time", "organic_rf_channel"]]) (by simp [InputData.Spec.table, hu]) _ hof).1
          exact absurd (show "organic_reach" = "organic_frequency" from this) (by decide)
      · cases hs

omit [LinearOrder κ] in
/-- The shapes documented for a national model, without a dimension for the geos, are refused by every
method, whatever was done before. -/
theorem flat_national_refused (env : Env κ) (kpiType : String) (s s' : St) :
    (∀ nd n, nd.shape = [n] → call env kpiType (.kpi nd) s ≠ .ok s') ∧
    (∀ nd n m names, nd.shape = [n, m] → call env kpiType (.controls nd names) s ≠ .ok s') ∧
    (∀ a b n m chs, a.shape = [n, m] → call env kpiType (.media a b chs) s ≠ .ok s') ∧
    (∀ a b c n m chs, a.shape = [n, m] → call env kpiType (.reach a b c chs) s ≠ .ok s') := by
  have key : ∀ (needs : List TimeKind) (chs : Option (List String)) (parts : List (Comp × Nd)),
      (∀ s1 : St, ∃ e, checkShapes chs s1 parts = .error e) → add env needs chs parts s ≠ .ok s' := by
    intro needs chs parts h hadd
    unfold add at hadd
    cases hn : needAll needs s with
    | error e => simp only [hn] at hadd; cases hadd
    | ok s1 =>
      obtain ⟨e, he⟩ := h s1
      simp only [hn, he] at hadd
      cases hadd
  refine ⟨?_, ?_, ?_, ?_⟩
  · intro nd n hn
    exact key _ _ _ fun s1 => ⟨.shape, by simp [checkShapes, checkShape, Comp.kind, hn]⟩
  · intro nd n m names hn
    refine key _ _ _ fun s1 => ?_
    by_cases h : names.Nodup
    · exact ⟨.shape, by simp [checkShapes, checkShape, Comp.kind, hn, h]⟩
    · exact ⟨.namesNotUnique, by simp [checkShapes, checkShape, Comp.kind, h]⟩
  · intro a b n m chs hn
    refine key _ _ _ fun s1 => ?_
    by_cases h : chs.Nodup
    · exact ⟨.shape, by simp [checkShapes, checkShape, Comp.kind, hn, h]⟩
    · exact ⟨.namesNotUnique, by simp [checkShapes, checkShape, Comp.kind, h]⟩
  · intro a b c n m chs hn
    refine key _ _ _ fun s1 => ?_
    by_cases h : chs.Nodup
    · exact ⟨.shape, by simp [checkShapes, checkShape, Comp.kind, hn, h]⟩
    · exact ⟨.namesNotUnique, by simp [checkShapes, checkShape, Comp.kind, h]⟩

omit [LinearOrder κ] in
/-- An array with media times is refused before the media times are set, and one with times before the
times are set, whatever was done before. -/
theorem labels_first (env : Env κ) (kpiType : String) (cl : Call) (s s' : St) (a : Given)
    (ha : a ∈ arrays kpiType cl) :
    (a.comp.kind = .mediaTime → s.mediaTimes = none →
      call env kpiType cl s = .error .mediaTimesFirst) ∧
    (a.comp.kind = .time → s.times = none → call env kpiType cl s ≠ .ok s') := by
  have h1 : ∀ (ks : List TimeKind) chs parts, s.mediaTimes = none →
      add env (.mediaTime :: ks) chs parts s = .error .mediaTimesFirst := by
    intro ks chs parts h
    simp [add, needAll, needCoords, h]
  have h2 : ∀ (ks : List TimeKind) (q : St), q.times = none → .time ∈ ks → ∀ r, needAll ks q ≠ .ok r := by
    intro ks
    induction ks with
    | nil => intro q _ hm; cases hm
    | cons k ks ih =>
      intro q hq hm r hr
      unfold needAll at hr
      cases hc : needCoords k q with
      | error e => simp only [hc] at hr; cases hr
      | ok q' =>
        simp only [hc] at hr
        have hq' : q'.times = none := by
          unfold needCoords at hc
          split at hc
          · cases hc
          · cases hc
          · split at hc
            · injection hc with e; rw [← e]; exact hq
            · split at hc
              · cases hc
              · rename_i q2 hg
                injection hc with e
                rw [← e]
                rcases setGeos_cases q [nationalGeo] with ⟨_, _, h⟩ | ⟨_, e', h⟩
                · rw [h] at hg; injection hg with e'; rw [← e']; exact hq
                · rw [h] at hg; cases hg
        rcases List.mem_cons.1 hm with e | e
        · rw [← e] at hc
          cases hmt : q.mediaTimes <;> simp [needCoords, hq, hmt] at hc
        · exact ih q' hq' e r hr
  have h3 : ∀ (ks : List TimeKind) chs parts, s.times = none → .time ∈ ks →
      add env ks chs parts s ≠ .ok s' := by
    intro ks chs parts h hm hadd
    unfold add at hadd
    cases hn : needAll ks s with
    | error e => simp only [hn] at hadd; cases hadd
    | ok s1 => exact h2 ks s h hm s1 hn
  cases cl with
  | population nd => simp [arrays] at ha; subst ha; exact ⟨fun h => (by cases h), fun h => (by cases h)⟩
  | kpi nd =>
    simp [arrays] at ha; subst ha
    exact ⟨fun h => (by cases h), fun _ h => h3 _ _ _ h (by simp)⟩
  | controls nd names =>
    simp [arrays] at ha; subst ha
    exact ⟨fun h => (by cases h), fun _ h => h3 _ _ _ h (by simp)⟩
  | revenuePerKpi nd =>
    simp [arrays] at ha; subst ha
    exact ⟨fun h => (by cases h), fun _ h => h3 _ _ _ h (by simp)⟩
  | nonMedia nd chs =>
    simp [arrays] at ha; subst ha
    exact ⟨fun h => (by cases h), fun _ h => h3 _ _ _ h (by simp)⟩
  | media m spend chs => exact ⟨fun _ h => h1 _ _ _ h, fun _ h => h3 _ _ _ h (by simp)⟩
  | reach r f spend chs => exact ⟨fun _ h => h1 _ _ _ h, fun _ h => h3 _ _ _ h (by simp)⟩
  | organicMedia nd chs =>
    simp [arrays] at ha; subst ha
    exact ⟨fun _ h => h1 _ _ _ h, fun h => (by cases h)⟩
  | organicReach r f chs =>
    refine ⟨fun _ h => h1 _ _ _ h, fun h => ?_⟩
    simp [arrays] at ha
    rcases ha with rfl | rfl <;> cases h

/-- A single geo must be called `national_geo`, or nothing can be built. -/
theorem single_geo_refused (env : Env κ) (kpiType : String) (p : Plan) (g : String) (hg : p.geos = some [g])
    (hn : g ≠ "national_geo") (d : InputData.Input) : session env kpiType p.ops ≠ .ok d := by
  intro h
  have hl : p.labels = [g] := by simp [Plan.labels, hg]
  have := ((session_iff env kpiType p d).1 h).2.2.2.1 (by rw [hl]; rfl)
  rw [hl, nationalGeo] at this
  exact hn (by simpa using this)

/-! ## Examples -/

/-- Every string is a date, all times are regular, and the natural order is the alphabetic one. -/
private def env0 : Env String := ⟨fun _ => true, fun _ => true, id⟩

/-- An array whose values tell their index. -/
private def nd0 (shape : List ℕ) : Nd := ⟨shape, fun ix => some (ix.foldl (fun n i => 10 * n + i) 1)⟩

/-- Two geos, two times, three media times. -/
private def plan0 : Plan where
  geos := some ["b", "a"]
  times := ["2024-01-15", "2024-01-08"]
  mediaTimes := ["2024-01-08", "2024-01-15", "2024-01-01"]
  calls := [.kpi (nd0 [2, 2]), .population (nd0 [2]), .media (nd0 [2, 3, 2]) (nd0 [2, 2, 2]) ["tv", "radio"]]

/-- What was built of a component. -/
private def look (c : Comp) (dim : String) : Except Err InputData.Input → Option (List String × List Num)
  | .error _ => none
  | .ok d => (component d c).map fun a => (a.coord dim, a.vals)

example : DatesOrdered env0 plan0 := fun _ _ _ _ h => h
example : look .kpi "geo" (session env0 "non_revenue" plan0.ops) =
    some (["a", "b"], [some 111, some 110, some 101, some 100]) := by decide +kernel
example : look .media "media_channel" (session env0 "non_revenue" plan0.ops) =
    some (["tv", "radio"], [some 1120, some 1121, some 1100, some 1101, some 1110, some 1111,
      some 1020, some 1021, some 1000, some 1001, some 1010, some 1011]) := by decide +kernel
example : Acceptable env0 "non_revenue" plan0 := by
  refine (accepted_iff env0 "non_revenue" plan0 fun _ _ _ _ h => h).1 ?_
  have h : (look .kpi "geo" (session env0 "non_revenue" plan0.ops)).isSome = true := by decide +kernel
  revert h
  cases session env0 "non_revenue" plan0.ops with
  | error e => intro h; cases h
  | ok d => intro _; exact ⟨d, rfl⟩
/-- A national model. -/
example : look .population "geo" (session env0 "revenue" [.times ["2024-01-08"], .mediaTimes ["2024-01-08"],
    .call (.kpi (nd0 [1, 1])), .call (.media (nd0 [1, 1, 1]) (nd0 [1, 1, 1]) ["tv"])]) =
    some (["national_geo"], [some 1]) := by decide +kernel
/-- The same with organic media is accepted, with organic reach it is not. -/
example : (look .organicMedia "geo" (session env0 "non_revenue"
    (plan0.ops ++ [.call (.organicMedia (nd0 [2, 3, 1]) ["blog"])]))).isSome = true ∧
    (look .organicReach "geo" (session env0 "non_revenue"
      (plan0.ops ++ [.call (.organicReach (nd0 [2, 3, 1]) (nd0 [2, 3, 1]) ["blog"])]))).isSome = false := by
  decide +kernel
/-- The method accepts the arrays; it is the input data that refuse them. -/
example : (match run env0 "non_revenue"
      (plan0.ops ++ [.call (.organicReach (nd0 [2, 3, 1]) (nd0 [2, 3, 1]) ["blog"])]) St.init with
    | .ok s => (match build env0 "non_revenue" s with | .error (.input .name) => true | _ => false)
    | .error _ => false) = true := by decide +kernel
/-- The documented shape without a dimension for the geos. -/
example : (look .kpi "geo" (session env0 "non_revenue" [.times ["2024-01-08"], .mediaTimes ["2024-01-08"],
    .call (.kpi (nd0 [1])), .call (.media (nd0 [1, 1, 1]) (nd0 [1, 1, 1]) ["tv"])])).isSome = false := by decide +kernel
/-- A single geo with a name of its own. -/
example : (look .kpi "geo" (session env0 "non_revenue" [.geos ["Italy"], .times ["2024-01-08"],
      .mediaTimes ["2024-01-08"], .call (.kpi (nd0 [1, 1])),
      .call (.media (nd0 [1, 1, 1]) (nd0 [1, 1, 1]) ["tv"])])).isSome = false ∧
    (look .kpi "geo" (session env0 "non_revenue" [.geos ["national_geo"], .times ["2024-01-08"],
      .mediaTimes ["2024-01-08"], .call (.kpi (nd0 [1, 1])),
      .call (.media (nd0 [1, 1, 1]) (nd0 [1, 1, 1]) ["tv"])])).isSome = true := by decide +kernel

/-- The hypotheses of `labels_first`. -/
example : (⟨.media, nd0 [1, 1, 1], ["tv"]⟩ : Given) ∈
      arrays "revenue" (.media (nd0 [1, 1, 1]) (nd0 [1, 1, 1]) ["tv"]) ∧
    Comp.kind .media = .mediaTime ∧ St.init.mediaTimes = none := ⟨by simp [arrays], rfl, rfl⟩

end Verif.NdArray.Props
