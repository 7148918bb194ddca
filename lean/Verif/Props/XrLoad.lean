import Mathlib.Tactic
import Verif.Lemmas.XrLoad

/-!
# Loading an xarray dataset

Property C96.
-/

namespace Verif.XrLoad.Props

open Verif Verif.Builder Verif.Builder.Spec Verif.XrLoad.Spec

variable {κ : Type} [LinearOrder κ]

omit [LinearOrder κ] in
/-- Each array is read from the variable with its documented name, and has the documented channel
dimension. -/
theorem documented_names (c : Comp) : ∃ n ch, (c, n, ch) ∈ documented ∧ channelDim c = ch ∧
    ∀ s : Ds, s.var c = (s.vars.find? fun v => v.1 = n).map Prod.snd := by
  cases c <;> exact ⟨_, _, by simp [documented, nameOf, channelDim], rfl, fun _ => rfl⟩

theorem withGeo_self {s : Ds} {G : List String} (h : s.labels "geo" = some G) : s.withGeo = s := by
  unfold Ds.withGeo
  simp [h]

theorem load_given {env : Env κ} {s : Ds} {G M : List String} (hG : s.labels "geo" = some G)
    (hM : s.labels "media_time" = some M) : load env none s = s.finish env := by
  unfold load applyMapping Ds.prepare
  simp only
  rw [withGeo_self hG]
  simp [hM]

/-- A dataset with media times is accepted exactly if its arrays have the documented dimensions and its
labels follow the rules. -/
theorem given_accepted (env : Env κ) (s : Ds) (hw : Wf s) {G T M : List String}
    (hG : s.labels "geo" = some G) (hT : s.labels "time" = some T)
    (hM : s.labels "media_time" = some M) :
    (∃ b, load env none s = .ok b) ↔
      (∀ c a, s.var c = some a → Shaped c (timeDim c) a) ∧
      Rules env G T M fun c => ∃ a, s.var c = some a := by
  rw [load_given hG hM, finish_accepted hG hT hM]
  have e : (fun c => ((s.var c).isSome : Prop)) = fun c => ∃ a, s.var c = some a := by
    funext c
    exact propext Option.isSome_iff_exists
  rw [e]
  refine and_congr_left fun _ => ?_
  refine forall₃_congr fun c a h => ?_
  exact array_isSome hG hT hM fun n hn => labels_of_mem (hw.chan _ (var_some h) n hn)

/-- With media times, the result holds the arrays of the dataset. -/
theorem given_values (env : Env κ) (s : Ds) (hw : Wf s) {G T M : List String}
    (hG : s.labels "geo" = some G) (hT : s.labels "time" = some T)
    (hM : s.labels "media_time" = some M) {b : Comp → Option DA} (h : load env none s = .ok b) :
    Loaded s G (fun c => if c.kind = .time then T else M)
      (fun c t => t ∈ if c.kind = .time then T else M) b := by
  have hsh := ((given_accepted env s hw hG hT hM).1 ⟨b, h⟩).1
  rw [load_given hG hM] at h
  obtain ⟨v1, v2, v3⟩ := finish_values hG hT hM h
  refine ⟨?_, fun c d hd => ?_, v3⟩
  · intro c a ha hp
    obtain ⟨d, hd, e1, e2, e3, e4, e5⟩ := v1 c a ha hp
    refine ⟨d, hd, e1, ?_, ?_, ?_⟩
    · intro n hn
      obtain ⟨K, hK⟩ := labels_of_mem (hw.chan _ (var_some ha) n ((hsh c a ha).chan.trans hn))
      rw [e2, hK]
      unfold Ds.chans
      rw [hn]
      simp [hK]
    · intro hk t
      cases hk' : c.kind with
      | noTime => exact absurd hk' hk
      | time => simpa using e3 hk' t
      | mediaTime => simpa using e4 hk' t
    · intro i i' j j' k g t h1 h2 h3 h4
      refine e5 i i' j j' k g t h1 h2 h3 ?_ ?_
      · intro hk; have := h4 (by rw [hk]; decide); simpa [hk] using this
      · intro hk; have := h4 (by rw [hk]; decide); simpa [hk] using this
  · rcases v2 c d hd with h | h
    · exact Or.inl (Option.isSome_iff_exists.1 h)
    · exact Or.inr h

/-- The dataset after the split. -/
def after (s : Ds) (T : List String) : Ds where
  dims := (s.dims.map fun d => (if d.1 = "time" then "media_time" else d.1, d.2)) ++
    [("time", s.period T)]
  vars := s.vars.map (s.splitVar T (s.period T))

theorem load_split {env : Env κ} {s : Ds} {G T : List String} (hG : s.labels "geo" = some G)
    (hT : s.labels "time" = some T) (hM : s.labels "media_time" = none) :
    load env none s = (if (s.var .kpi).isNone then .error .noKpi
      else if ¬ lagComps.all fun c => (s.var c).all (fits c (some "time")) then .error .dims
      else if ¬ T.Nodup then .error .duplicates
      else (after s T).finish env) := by
  unfold load applyMapping Ds.prepare
  simp only
  rw [withGeo_self hG, hM]
  simp only [Option.isSome_none, Bool.false_eq_true, if_false]
  unfold Ds.split
  rw [hT]
  simp only
  by_cases h1 : (s.var .kpi).isNone
  · rw [if_pos h1, if_pos h1]
  rw [if_neg h1, if_neg h1]
  by_cases h2 : ¬ (lagComps.all fun c => (s.var c).all (fits c (some "time"))) = true
  · rw [if_pos h2, if_pos h2]
  rw [if_neg h2, if_neg h2]
  by_cases h3 : ¬ T.Nodup
  · rw [if_pos h3, if_pos h3]
  · rw [if_neg h3, if_neg h3]
    rfl

theorem after_geo {s : Ds} {G T : List String} (hG : s.labels "geo" = some G) :
    (after s T).labels "geo" = some G := by
  rw [after, split_labels _ _ (by decide) (by decide), hG]

theorem after_chan {s : Ds} (T : List String) {c : Comp} {n : String} (hn : channelDim c = some n) :
    (after s T).labels n = s.labels n := by
  refine split_labels _ _ ?_ ?_ <;> rintro rfl <;> revert hn <;> cases c <;> decide

theorem after_chans {s : Ds} (T : List String) (c : Comp) : (after s T).chans c = s.chans c := by
  unfold Ds.chans
  cases h : channelDim c with
  | none => rfl
  | some n => simp [after_chan T h]

/-- The time dimension of an array of a dataset without media times. -/
def plainTime (c : Comp) : Option String := if c.kind = .noTime then none else some "time"

theorem moved_shaped {s : Ds} (hw : Wf s) (hM : s.labels "media_time" = none) {T P : List String}
    {c : Comp} {a : Arr} (ha : s.var c = some a) (ht : c.kind = .time → a.time = some "time") :
    Shaped c (timeDim c) (s.moved T P c a) ↔ Shaped c (plainTime c) a := by
  have hno : a.time ≠ some "media_time" := by
    intro e
    obtain ⟨K, hK⟩ := labels_of_mem (hw.time _ (var_some ha) _ e)
    rw [hM] at hK
    cases hK
  unfold Ds.moved timeDim plainTime
  cases hk : c.kind with
  | time =>
    simp only [if_true, reduceCtorEq, if_false]
    constructor
    · rintro ⟨h1, h2, h3⟩
      exact ⟨h1, h2, ht hk⟩
    · rintro ⟨h1, h2, h3⟩
      exact ⟨h1, h2, rfl⟩
  | noTime =>
    simp only [reduceCtorEq, if_false, if_true]
    constructor
    · rintro ⟨h1, h2, h3⟩
      refine ⟨h1, h2, ?_⟩
      simp only at h3
      split_ifs at h3
      exact h3
    · rintro ⟨h1, h2, h3⟩
      refine ⟨h1, h2, ?_⟩
      simp [h3]
  | mediaTime =>
    simp only [reduceCtorEq, if_false]
    constructor
    · rintro ⟨h1, h2, h3⟩
      refine ⟨h1, h2, ?_⟩
      simp only at h3
      split_ifs at h3 with h
      · exact h
      · exact absurd h3 hno
    · rintro ⟨h1, h2, h3⟩
      refine ⟨h1, h2, ?_⟩
      simp [h3]

/-- A dataset without media times is accepted exactly if its arrays have the documented dimensions and
the labels follow the rules, where the media times are all times and the times are those at which no
value is missing. -/
theorem split_accepted (env : Env κ) (s : Ds) (hw : Wf s) {G T : List String}
    (hG : s.labels "geo" = some G) (hT : s.labels "time" = some T)
    (hM : s.labels "media_time" = none) :
    (∃ b, load env none s = .ok b) ↔
      (∀ c a, s.var c = some a → Shaped c (if c.kind = .noTime then none else some "time") a) ∧
      ∃ P, P.Sublist T ∧ (∀ t, t ∈ P ↔ t ∈ T ∧ ¬ Incomplete s t) ∧
        Rules env G P T fun c => ∃ a, s.var c = some a := by
  rw [load_split hG hT hM]
  have hvar : ∀ c, (after s T).var c = (s.var c).map (s.moved T (s.period T) c) :=
    fun c => split_var s T (s.period T) _ c
  have hlag : (lagComps.all fun c => (s.var c).all (fits c (some "time"))) = true ↔
      ∀ c a, s.var c = some a → c.kind = .time → Shaped c (some "time") a := by
    rw [List.all_eq_true]
    constructor
    · intro h c a ha hk
      have := h c ((mem_lagComps c).2 hk)
      rw [ha] at this
      unfold fits at this
      obtain ⟨h1, h2, h3⟩ := of_decide_eq_true this
      exact ⟨h1, h2, h3⟩
    · intro h c hc
      cases ha : s.var c with
      | none => rfl
      | some a =>
        have := h c a ha ((mem_lagComps c).1 hc)
        unfold fits
        exact decide_eq_true ⟨this.geo, this.chan, this.time⟩
  constructor
  · intro h
    split_ifs at h with h1 h2 h3
    · simp at h
    · rw [hlag] at h2
      rw [finish_accepted (after_geo hG) (split_labels_time _ _) (split_labels_media _ _ hM hT)] at h
      obtain ⟨ha, hr⟩ := h
      refine ⟨?_, s.period T, period_sublist s T, mem_period hG hT h3, ?_⟩
      · intro c a hv
        have hne := ha c _ (by rw [hvar, hv]; rfl)
        obtain ⟨d, hd⟩ := Option.ne_none_iff_exists'.1 hne
        have hs := (array_some (after_geo hG) (split_labels_time _ _) (split_labels_media _ _ hM hT) hd).1
        exact (moved_shaped hw hM hv fun hk => (h2 c a hv hk).time).1 hs
      · have e : (fun c => (((after s T).var c).isSome : Prop)) = fun c => ∃ a, s.var c = some a := by
          funext c
          rw [hvar]
          simp [Option.isSome_iff_exists]
        rwa [e] at hr
    · simp at h
    · simp at h
  · rintro ⟨hs, P, hP, hmem, hr⟩
    have hn : T.Nodup := hr.mediaDistinct
    have h1 : ¬ (s.var .kpi).isNone := by
      obtain ⟨a, ha⟩ := hr.complete.kpi
      simp [ha]
    have h2 : (lagComps.all fun c => (s.var c).all (fits c (some "time"))) = true := by
      rw [hlag]
      intro c a ha hk
      have := hs c a ha
      rwa [if_neg (by rw [hk]; decide)] at this
    rw [if_neg h1, if_neg (not_not.2 h2), if_neg (not_not.2 hn)]
    rw [finish_accepted (after_geo hG) (split_labels_time _ _) (split_labels_media _ _ hM hT)]
    have hPe : P = s.period T := by
      have hperm : P.Perm (s.period T) := Builder.Props.perm_of_nodup (hP.nodup hn) ((period_sublist s T).nodup hn)
        fun t => (hmem t).trans (mem_period hG hT hn t).symm
      exact sublist_unique hn hP (period_sublist s T) hperm
    subst hPe
    constructor
    · intro c a' ha'
      rw [hvar] at ha'
      obtain ⟨a, ha, rfl⟩ := Option.map_eq_some_iff.1 ha'
      have hsa := hs c a ha
      refine (array_isSome (after_geo hG) (split_labels_time _ _) (split_labels_media _ _ hM hT) ?_).2
        ((moved_shaped hw hM ha ?_).2 hsa)
      · intro n hn'
        have hc : (s.moved T (s.period T) c a).chan = a.chan := by
          unfold Ds.moved
          split_ifs <;> rfl
        rw [hc] at hn'
        have hcd : channelDim c = some n := hsa.chan.symm.trans hn'
        rw [after_chan T hcd]
        exact labels_of_mem (hw.chan _ (var_some ha) n hn')
      · intro hk
        have := hsa.time
        rwa [if_neg (by rw [hk]; decide)] at this
    · have e : (fun c => (((after s T).var c).isSome : Prop)) = fun c => ∃ a, s.var c = some a := by
        funext c
        rw [hvar]
        simp [Option.isSome_iff_exists]
      rwa [e]

/-- Without media times, the media arrays keep all times, the other arrays keep the times at which no
value is missing, and all values stay under their labels. -/
theorem split_values (env : Env κ) (s : Ds) (hw : Wf s) {G T : List String}
    (hG : s.labels "geo" = some G) (hT : s.labels "time" = some T)
    (hM : s.labels "media_time" = none) {b : Comp → Option DA} (h : load env none s = .ok b) :
    Loaded s G (fun _ => T) (fun c t => t ∈ T ∧ (c.kind = .time → ¬ Incomplete s t)) b := by
  have hsh := ((split_accepted env s hw hG hT hM).1 ⟨b, h⟩).1
  rw [load_split hG hT hM] at h
  have hvar : ∀ c, (after s T).var c = (s.var c).map (s.moved T (s.period T) c) :=
    fun c => split_var s T (s.period T) _ c
  split_ifs at h with h1 h2 h3
  obtain ⟨v1, v2, v3⟩ := finish_values (after_geo hG) (split_labels_time _ _)
    (split_labels_media _ _ hM hT) h
  refine ⟨?_, fun c d hd => ?_, v3⟩
  · intro c a ha hp
    obtain ⟨d, hd, e1, e2, e3, e4, e5⟩ := v1 c _ (by rw [hvar, ha]; rfl) hp
    refine ⟨d, hd, e1, ?_, ?_, ?_⟩
    · intro n hn
      obtain ⟨K, hK⟩ := labels_of_mem (hw.chan _ (var_some ha) n ((hsh c a ha).chan.trans hn))
      have := after_chans (s := s) T c
      rw [e2, hK, show Ds.chans _ c = s.chans c from this]
      unfold Ds.chans
      rw [hn]
      simp [hK]
    · intro hk t
      cases hk' : c.kind with
      | noTime => exact absurd hk' hk
      | time => rw [e3 hk' t, mem_period hG hT h3]; simp
      | mediaTime => rw [e4 hk' t]; simp
    · intro i i' j j' k g t g1 g2 g3 g4
      cases hk : c.kind with
      | noTime =>
        have := e5 i i' j j' k g t g1 g2 g3 (fun h => by rw [hk] at h; cases h)
          (fun h => by rw [hk] at h; cases h)
        rw [this]
        unfold Ds.moved
        rw [if_neg (by rw [hk]; decide)]
      | mediaTime =>
        have := e5 i i' j j' k g t g1 g2 g3 (fun h => by rw [hk] at h; cases h)
          (fun h => g4 (by rw [hk]; decide))
        rw [this]
        unfold Ds.moved
        rw [if_neg (by rw [hk]; decide)]
      | time =>
        obtain ⟨g5, g6⟩ := g4 (by rw [hk]; decide)
        have hmem : t ∈ s.period T := (e3 hk t).1 (List.mem_of_getElem? g5)
        obtain ⟨q, hq, eq⟩ := List.getElem_of_mem hmem
        have hq' : (s.period T)[q]? = some t := by rw [List.getElem?_eq_getElem hq, eq]
        have := e5 i i' j q k g t g1 g2 (fun h => by rw [hk] at h; cases h)
          (fun _ => ⟨g5, hq'⟩) (fun h => by rw [hk] at h; cases h)
        rw [this]
        unfold Ds.moved
        rw [if_pos hk]
        exact shorten_vals hG hT h3 hk ha hq' g6
  · rcases v2 c d hd with h | h
    · have h : ((after s T).var c).isSome := h
      rw [hvar] at h
      simp only [Option.isSome_map] at h
      exact Or.inl (Option.isSome_iff_exists.1 h)
    · exact Or.inr h

/-- The incomplete times of an accepted dataset all come before the complete ones. -/
theorem split_no_gap (env : Env κ) (s : Ds) (hw : Wf s) {G T : List String}
    (hG : s.labels "geo" = some G) (hT : s.labels "time" = some T)
    (hM : s.labels "media_time" = none) {b : Comp → Option DA} (h : load env none s = .ok b)
    {t t' : String} (ht : t ∈ T) (ht' : t' ∈ T) (hi : Incomplete s t) (hi' : ¬ Incomplete s t') :
    t < t' := by
  obtain ⟨_, P, _, hP, hr⟩ := (split_accepted env s hw hG hT hM).1 ⟨b, h⟩
  exact hr.lagged.2 t ht (fun hp => ((hP t).1 hp).2 hi) t' ((hP t').2 ⟨ht', hi'⟩)

/-- A value that is missing for one geo and one channel takes the date out of all arrays other than
media. -/
theorem one_missing_drops_date (env : Env κ) (s : Ds) (hw : Wf s) {G T : List String}
    (hG : s.labels "geo" = some G) (hT : s.labels "time" = some T)
    (hM : s.labels "media_time" = none) {b : Comp → Option DA} (h : load env none s = .ok b)
    {c : Comp} {g t : String} {k : ℕ} (hc : c.kind = .time) (hk : k < s.width c)
    (hv : Value s "time" c g t k none) {c' : Comp} (hc' : c'.kind = .time) {d : DA}
    (hd : b c' = some d) : t ∉ d.times := by
  have hl := split_values env s hw hG hT hM h
  rcases hl.only c' d hd with ⟨a, ha⟩ | ⟨rfl, _⟩
  · obtain ⟨d', hd', _, _, h3, _⟩ := hl.array c' a ha (by rintro rfl; cases hc')
    rw [hd] at hd'
    cases hd'
    intro ht
    exact ((h3 (by rw [hc']; decide) t).1 ht).2 hc' ⟨c, g, k, hc, hk, hv⟩
  · cases hc'

/-! ### National data -/

omit [LinearOrder κ] in
theorem withGeo_geo {s : Ds} (h : s.labels "geo" = none) : s.withGeo.labels "geo" = some ["0"] := by
  have h' : s.dims.find? (fun x => decide (x.1 = "geo")) = none := Option.map_eq_none_iff.1 h
  unfold Ds.withGeo
  rw [h]
  simp only [Option.isSome_none, Bool.false_eq_true, if_false]
  unfold Ds.labels
  simp only [List.find?_append, h']
  rfl

omit [LinearOrder κ] in
theorem withGeo_labels {s : Ds} {n : String} (hn : n ≠ "geo") : s.withGeo.labels n = s.labels n := by
  unfold Ds.withGeo
  split_ifs
  · rfl
  · unfold Ds.labels
    simp only [List.find?_append]
    have : ([("geo", ["0"])] : List (String × List String)).find? (fun x => decide (x.1 = n)) = none := by
      simp [Ne.symm hn]
    rw [this]
    simp

omit [LinearOrder κ] in
theorem withGeo_var {s : Ds} (hg : ∀ v ∈ s.vars, v.2.geo = none) (h : s.labels "geo" = none)
    (c : Comp) : s.withGeo.var c = (s.var c).map fun a => { a with geo := some "geo" } := by
  unfold Ds.withGeo
  rw [h]
  simp only [Option.isSome_none, Bool.false_eq_true, if_false]
  unfold Ds.var
  simp only [List.find?_map, Option.map_map]
  have e : ∀ g : String × Arr → String × Arr, (∀ v, (g v).1 = v.1) →
      s.vars.find? ((fun x => decide (x.1 = nameOf c)) ∘ g) =
        s.vars.find? (fun x => decide (x.1 = nameOf c)) := fun g hg' =>
    find_congr' fun x _ => by simp [hg' x]
  rw [e]
  swap
  · intro v
    rfl
  cases hf : s.vars.find? (fun x => decide (x.1 = nameOf c)) with
  | none => rfl
  | some v =>
    have := hg v (List.mem_of_find?_eq_some hf)
    simp only [Option.map_some, Function.comp, this]

/-- A dataset without geos is loaded as the dataset with a single geo. -/
theorem national_expanded (env : Env κ) (s : Ds) (hw : Wf s) (hg : s.labels "geo" = none)
    (hv : ∀ v ∈ s.vars, v.2.geo = none) :
    ∃ s', Expanded s s' "0" ∧ Wf s' ∧ load env none s = load env none s' := by
  refine ⟨s.withGeo, ⟨withGeo_geo hg, fun n hn => withGeo_labels hn, withGeo_var hv hg⟩, ?_, ?_⟩
  · have hsub : ∀ n, n ∈ s.dims.map (·.1) → n ∈ s.withGeo.dims.map (·.1) := by
      intro n hn
      obtain ⟨K, hK⟩ := labels_of_mem hn
      have hne : n ≠ "geo" := by rintro rfl; rw [hg] at hK; cases hK
      exact mem_of_labels ((withGeo_labels hne).trans hK)
    have hgeo := mem_of_labels (withGeo_geo hg)
    have hmem : ∀ v ∈ s.withGeo.vars, ∃ v' ∈ s.vars, v.2.geo = some "geo" ∧ v.2.time = v'.2.time ∧
        v.2.chan = v'.2.chan := by
      intro v hvm
      unfold Ds.withGeo at hvm
      rw [hg] at hvm
      simp only [Option.isSome_none, Bool.false_eq_true, if_false] at hvm
      obtain ⟨v', h1, rfl⟩ := List.mem_map.1 hvm
      exact ⟨v', h1, by simp [hv v' h1], rfl, rfl⟩
    constructor
    · intro v hvm n hn
      obtain ⟨v', h1, h2, h3, h4⟩ := hmem v hvm
      rw [h2] at hn
      cases hn
      exact hgeo
    · intro v hvm n hn
      obtain ⟨v', h1, h2, h3, h4⟩ := hmem v hvm
      exact hsub n (hw.time v' h1 n (h3 ▸ hn))
    · intro v hvm n hn
      obtain ⟨v', h1, h2, h3, h4⟩ := hmem v hvm
      exact hsub n (hw.chan v' h1 n (h4 ▸ hn))
  · unfold load applyMapping Ds.prepare
    simp only
    rw [withGeo_self (withGeo_geo hg)]

/-- National data: all arrays are about the geo `national_geo`, with the values of the dataset under
their dates, and the population is one. -/
theorem national_values (env : Env κ) (s : Ds) (hw : Wf s) (hg : s.labels "geo" = none)
    (hv : ∀ v ∈ s.vars, v.2.geo = none) {T M : List String} (hT : s.labels "time" = some T)
    (hM : s.labels "media_time" = some M) {b : Comp → Option DA} (h : load env none s = .ok b) :
    (∀ c a, s.var c = some a → c ≠ .population → ∃ d, b c = some d ∧
      (∀ g, g ∈ d.geos ↔ g = nationalGeo) ∧ (c.kind ≠ .noTime → ∀ t, t ∈ d.times ↔ t ∈ if c.kind = .time then T else M) ∧
      ∀ (i j j' k : ℕ) (t : String), i < d.geos.length → d.times[j]? = some t →
        (if c.kind = .time then T else M)[j']? = some t → d.vals i j k = a.vals 0 j' k) ∧
    ∃ d, b .population = some d ∧ d.geos = [nationalGeo] ∧ ∀ j k, d.vals 0 j k = some 1 := by
  obtain ⟨s', he, hw', e⟩ := national_expanded env s hw hg hv
  rw [e] at h
  have hT' := (he.labels "time" (by decide)).trans hT
  have hM' := (he.labels "media_time" (by decide)).trans hM
  have hl := given_values env s' hw' he.geo hT' hM' h
  refine ⟨?_, hl.national rfl⟩
  intro c a ha hp
  obtain ⟨d, hd, h1, h2, h3, h4⟩ := hl.array c { a with geo := some "geo" } (by rw [he.arrays, ha]; rfl)
    fun e => absurd e hp
  have hnk : c.kind ≠ .noTime := by
    intro hk
    cases c <;> first | exact absurd rfl hp | cases hk
  have hge : ∀ g, g ∈ d.geos ↔ g = nationalGeo := by
    intro g
    rw [h1 g]
    simp [normGeos]
  refine ⟨d, hd, hge, h3, ?_⟩
  intro i j j' k t hi ht ht'
  refine h4 i 0 j j' k nationalGeo t ?_ ?_ ?_ ?_
  · rw [List.getElem?_eq_getElem hi, (hge _).1 (List.getElem_mem hi)]
  · rfl
  · intro hk; exact absurd hk hnk
  · intro _; exact ⟨ht, ht'⟩

/-! ### The mapping of names -/

/-- A dataset whose names differ from the documented ones is loaded, with the mapping of its names, as
the dataset with the documented names. -/
theorem mapping_values (env : Env κ) (s : Ds) (hw : Wf s) (hn : s.names.Nodup)
    (m : List (String × String)) (f : String → String) (h1 : (m.map (·.1)).Nodup)
    (h2 : ∀ p ∈ m, f p.2 = p.1) (h3 : ∀ n ∈ s.names, (∀ p ∈ m, p.2 ≠ n) → f n = n)
    (h4 : ∀ p ∈ m, p.2 ∈ possible) (h5 : ∀ p ∈ m, p.2 ∈ s.names) (h6 : ∀ p ∈ m, p.1 ∉ s.names) :
    load env (some m) (renamed f s) = load env none s := by
  have hren : ∀ n ∈ s.names, ren m (f n) = n := by
    intro n hns
    by_cases hp : ∃ p ∈ m, p.2 = n
    · obtain ⟨p, hpm, rfl⟩ := hp
      rw [h2 p hpm]
      unfold ren
      have : m.find? (fun x => decide (x.1 = p.1)) = some p := by
        cases hf : m.find? (fun x => decide (x.1 = p.1)) with
        | none => have := List.find?_eq_none.1 hf p hpm; simp at this
        | some q =>
          have hq := List.find?_some hf
          have hq' : q.1 = p.1 := of_decide_eq_true hq
          have := List.inj_on_of_nodup_map h1 (List.mem_of_find?_eq_some hf) hpm hq'
          rw [this]
      rw [this]
    · push Not at hp
      rw [h3 n hns hp]
      unfold ren
      have : m.find? (fun x => decide (x.1 = n)) = none := by
        rw [List.find?_eq_none]
        intro x hx
        simp only [decide_eq_true_eq]
        rintro rfl
        exact h6 x hx hns
      rw [this]
  have hdim : ∀ d ∈ s.dims, ren m (f d.1) = d.1 := fun d hd =>
    hren _ (List.mem_append_left _ (List.mem_map.2 ⟨d, hd, rfl⟩))
  have hopt : ∀ o : Option String, (∀ n, o = some n → n ∈ s.dims.map (·.1)) →
      (o.map f).map (ren m) = o := by
    intro o ho
    cases o with
    | none => rfl
    | some n =>
      obtain ⟨d, hd, e⟩ := List.mem_map.1 (ho n rfl)
      simp only [Option.map_some, Option.some.injEq]
      rw [← e]
      exact hdim d hd
  have hback : (renamed f s).rename m = s := by
    cases s with
    | mk dims vars =>
      unfold renamed Ds.rename
      simp only [List.map_map, Ds.mk.injEq]
      constructor
      · conv_rhs => rw [← List.map_id dims]
        refine List.map_congr_left fun d hd => ?_
        simp [Function.comp, hdim d hd]
      · conv_rhs => rw [← List.map_id vars]
        refine List.map_congr_left fun v hv => ?_
        have e1 := hren v.1 (List.mem_append_right _ (List.mem_map.2 ⟨v, hv, rfl⟩))
        have e2 := hopt v.2.geo (hw.geo v hv)
        have e3 := hopt v.2.time (hw.time v hv)
        have e4 := hopt v.2.chan (hw.chan v hv)
        simp only [Function.comp, e1, e2, e3, e4]
        rfl
  have hnames : ∀ p ∈ m, p.1 ∈ (renamed f s).names := by
    intro p hp
    have := h5 p hp
    unfold Ds.names at this ⊢
    unfold renamed
    simp only [List.mem_append, List.mem_map] at this ⊢
    rcases this with ⟨d, hd, e⟩ | ⟨v, hv, e⟩
    · exact Or.inl ⟨_, ⟨d, hd, rfl⟩, by simp [e, h2 p hp]⟩
    · exact Or.inr ⟨_, ⟨v, hv, rfl⟩, by simp [e, h2 p hp]⟩
  have happ : applyMapping (some m) (renamed f s) = .ok s := by
    unfold applyMapping
    simp only
    rw [if_neg (by rw [not_not, List.all_eq_true]; exact fun p hp => decide_eq_true (h4 p hp)),
      if_neg (by rw [not_not, List.all_eq_true]; exact fun p hp => decide_eq_true (hnames p hp)),
      hback, if_neg (not_not.2 hn)]
  unfold load
  rw [happ]
  rfl

/-- A mapping to a name that is not documented, or from a name that the dataset does not have, is
refused. -/
theorem mapping_refused (env : Env κ) (s : Ds) (m : List (String × String))
    (h : (∃ p ∈ m, p.2 ∉ possible) ∨ ∃ p ∈ m, p.1 ∉ s.names) (b : Comp → Option DA) :
    load env (some m) s ≠ .ok b := by
  intro hb
  unfold load applyMapping at hb
  simp only at hb
  split_ifs at hb with g1 g2 g3
  · rw [List.all_eq_true] at g1 g2
    rcases h with ⟨p, hp, hn⟩ | ⟨p, hp, hn⟩
    · exact hn (of_decide_eq_true (g1 p hp))
    · exact hn (of_decide_eq_true (g2 p hp))

/-! ### What the documentation promises and the loader refuses -/

/-- Spend by channel alone, which the documentation of the constructor lists for geo data, is refused. -/
theorem flat_spend_refused (env : Env κ) (s : Ds) (hw : Wf s) {G T : List String}
    (hG : s.labels "geo" = some G) (hT : s.labels "time" = some T) {c : Comp}
    (hc : c = .mediaSpend ∨ c = .rfSpend) {a : Arr} (ha : s.var c = some a)
    (hflat : a.geo = none ∨ a.time = none) (b : Comp → Option DA) : load env none s ≠ .ok b := by
  intro h
  have hs : ∃ t, Shaped c (some t) a := by
    cases hM : s.labels "media_time" with
    | some M =>
      have := ((given_accepted env s hw hG hT hM).1 ⟨b, h⟩).1 c a ha
      rcases hc with rfl | rfl <;> exact ⟨_, this⟩
    | none =>
      have := ((split_accepted env s hw hG hT hM).1 ⟨b, h⟩).1 c a ha
      rcases hc with rfl | rfl <;> exact ⟨_, this⟩
  obtain ⟨t, hs⟩ := hs
  rcases hflat with e | e
  · have := hs.geo; rw [e] at this; cases this
  · have := hs.time; rw [e] at this; cases this

/-! ### Examples -/

/-- For the examples: any label is a date, any times are regular, the natural order is alphabetic. -/
def env1 : Env ℕ := ⟨fun _ => true, fun _ => true, fun s => s.toList.foldl (fun n c => 300 * n + c.toNat) 0⟩

def cell (i j k : ℕ) : Num := some ((100 * i + 10 * j + k : ℕ) : ℚ)

/-- Two geos, three weeks; in the first the KPI of the second geo is missing. -/
def ds1 : Ds where
  dims := [("geo", ["b", "a"]), ("time", ["2024-01-01", "2024-01-08", "2024-01-15"]),
    ("media_channel", ["tv"])]
  vars := [("kpi", ⟨some "geo", some "time", none, fun i j k => if i = 1 ∧ j = 0 then none else cell i j k⟩),
    ("population", ⟨some "geo", none, none, cell⟩),
    ("media", ⟨some "geo", some "time", some "media_channel", cell⟩),
    ("media_spend", ⟨some "geo", some "time", some "media_channel", cell⟩)]

/-- What was loaded for a component. -/
def shown (r : Except Err (Comp → Option DA)) (c : Comp) :
    Option (List String × List String × List (List Num)) :=
  match r with
  | .ok b => (b c).map fun d => (d.geos, d.times, (List.range d.geos.length).map fun i =>
      (List.range d.times.length).map fun j => d.vals i j 0)
  | .error _ => none

theorem wf1 : Wf ds1 := by constructor <;> decide +kernel

-- the hypotheses of the theorems on datasets without media times
example : shown (load env1 none ds1) .kpi =
    some (["a", "b"], ["2024-01-08", "2024-01-15"], [[some 110, some 120], [some 10, some 20]]) := by
  decide +kernel
example : shown (load env1 none ds1) .media =
    some (["a", "b"], ["2024-01-01", "2024-01-08", "2024-01-15"],
      [[some 100, some 110, some 120], [some 0, some 10, some 20]]) := by
  decide +kernel
example : Incomplete ds1 "2024-01-01" :=
  ⟨.kpi, "a", 0, rfl, by decide +kernel, _, 1, 0, _, _, rfl, rfl, rfl, rfl, rfl, by decide +kernel⟩
example : ¬ Incomplete ds1 "2024-01-08" := by
  rw [← naMask_iff (s := ds1) rfl rfl (by decide +kernel) (j := 1) rfl]
  decide +kernel
example : Value ds1 "time" .kpi "a" "2024-01-01" 0 none ∧ 0 < ds1.width .kpi :=
  ⟨⟨_, 1, 0, _, _, rfl, rfl, rfl, rfl, rfl, by decide +kernel⟩, by decide +kernel⟩

/-- National data with media times. -/
def ds2 : Ds where
  dims := [("time", ["2024-01-08", "2024-01-15"]),
    ("media_time", ["2024-01-01", "2024-01-08", "2024-01-15"]), ("media_channel", ["tv"])]
  vars := [("kpi", ⟨none, some "time", none, cell⟩),
    ("media", ⟨none, some "media_time", some "media_channel", cell⟩),
    ("media_spend", ⟨none, some "time", some "media_channel", cell⟩)]

theorem wf2 : Wf ds2 := by constructor <;> decide +kernel

-- the hypotheses of the theorems on national data and on datasets with media times
example : (shown (load env1 none ds2) .media) =
    some (["national_geo"], ["2024-01-01", "2024-01-08", "2024-01-15"], [[some 0, some 10, some 20]]) ∧
    ds2.labels "geo" = none ∧ ∀ v ∈ ds2.vars, v.2.geo = none := by decide +kernel

-- the hypotheses of `mapping_values`
def map1 : List (String × String) := [("group", "geo"), ("conversions", "kpi")]
def names1 (n : String) : String := if n = "geo" then "group" else if n = "kpi" then "conversions" else n

example : ds1.names.Nodup ∧ (map1.map (·.1)).Nodup ∧ (∀ p ∈ map1, names1 p.2 = p.1) ∧
    (∀ n ∈ ds1.names, (∀ p ∈ map1, p.2 ≠ n) → names1 n = n) ∧ (∀ p ∈ map1, p.2 ∈ possible) ∧
    (∀ p ∈ map1, p.2 ∈ ds1.names) ∧ ∀ p ∈ map1, p.1 ∉ ds1.names := by decide +kernel
example : shown (load env1 (some map1) (renamed names1 ds1)) .kpi =
    some (["a", "b"], ["2024-01-08", "2024-01-15"], [[some 110, some 120], [some 10, some 20]]) := by
  decide +kernel
example : shown (load env1 none (renamed names1 ds1)) .kpi = none := by decide +kernel

-- the hypotheses of `mapping_refused`
example : ("cost", "spend") ∈ [("cost", "spend")] ∧ "spend" ∉ possible := by decide +kernel

/-- Spend as the documentation allows it. -/
def ds3 : Ds where
  dims := ds1.dims
  vars := ds1.vars.take 3 ++ [("media_spend", ⟨none, none, some "media_channel", cell⟩)]

-- the hypotheses of `flat_spend_refused`
example : Wf ds3 ∧ ds3.labels "geo" = some ["b", "a"] ∧
    (ds3.var .mediaSpend).map (fun a => (a.geo, a.time)) = some (none, none) :=
  ⟨by constructor <;> decide +kernel, by decide +kernel, by decide +kernel⟩

end Verif.XrLoad.Props
