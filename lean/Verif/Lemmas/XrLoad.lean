import Mathlib.Tactic
import Verif.Spec.XrLoad
import Verif.Props.Builder

/-!
# Lemmas on loading a dataset
-/

namespace Verif.XrLoad

open Verif Verif.Builder Verif.Builder.Spec Verif.Builder.Props Verif.XrLoad.Spec

theorem nameOf_inj {c d : Comp} (h : nameOf c = nameOf d) : c = d := by
  cases c <;> cases d <;> first | rfl | (exfalso; revert h; decide)

theorem mem_loadOrder (c : Comp) : c ∈ loadOrder := by cases c <;> decide

theorem loadOrder_nodup : loadOrder.Nodup := by decide

theorem mem_lagComps (c : Comp) : c ∈ lagComps ↔ c.kind = .time := by cases c <;> decide

/-! ### Components -/

/-- The pairs handed over. -/
def Ds.pairs (s : Ds) (l : List Comp) : List (Comp × DA) :=
  l.filterMap fun c => (s.var c).bind fun a => (s.array c a).map fun d => (c, d)

theorem components_ok {s : Ds} : ∀ {l : List Comp},
    (∀ c ∈ l, ∀ a, s.var c = some a → s.array c a ≠ none) → s.components l = .ok (s.pairs l) := by
  intro l
  induction l with
  | nil => intro _; rfl
  | cons c l ih =>
    intro h
    have ih' := ih fun c hc => h c (List.mem_cons_of_mem _ hc)
    simp only [Ds.components, Ds.pairs, List.filterMap_cons]
    cases hv : s.var c with
    | none => simpa [Ds.pairs] using ih'
    | some a =>
      cases ha : s.array c a with
      | none => exact absurd ha (h c List.mem_cons_self a hv)
      | some d => simp [ha, ih', Ds.pairs]

theorem components_error {s : Ds} : ∀ {l : List Comp},
    (∃ c ∈ l, ∃ a, s.var c = some a ∧ s.array c a = none) → s.components l = .error .dims := by
  intro l
  induction l with
  | nil => rintro ⟨c, hc, _⟩; cases hc
  | cons c l ih =>
    rintro ⟨c', hc', a', h1, h2⟩
    simp only [Ds.components]
    by_cases hl : ∃ c ∈ l, ∃ a, s.var c = some a ∧ s.array c a = none
    · have := ih hl
      cases hv : s.var c with
      | none => simp [this]
      | some a =>
        cases ha : s.array c a with
        | none => simp [ha]
        | some d => simp [ha, this]
    · have : c' = c := by
        rcases List.mem_cons.1 hc' with h | h
        · exact h
        · exact absurd ⟨c', h, a', h1, h2⟩ hl
      subst this
      simp [h1, h2]

theorem mem_pairs {s : Ds} {l : List Comp} {c : Comp} {d : DA} :
    (c, d) ∈ s.pairs l ↔ c ∈ l ∧ ∃ a, s.var c = some a ∧ s.array c a = some d := by
  unfold Ds.pairs
  simp only [List.mem_filterMap, Option.bind_eq_some_iff, Option.map_eq_some_iff, Prod.mk.injEq]
  constructor
  · rintro ⟨c', h1, a, h2, d', h3, rfl, rfl⟩
    exact ⟨h1, a, h2, h3⟩
  · rintro ⟨h1, a, h2, h3⟩
    exact ⟨c, h1, a, h2, d, h3, rfl, rfl⟩

theorem pairs_pairwise {s : Ds} : ∀ {l : List Comp}, l.Nodup →
    (s.pairs l).Pairwise fun x y => x.1 ≠ y.1 := by
  intro l h
  unfold Ds.pairs
  rw [List.pairwise_filterMap]
  refine h.imp ?_
  intro a b hab x hx y hy
  simp only [Option.bind_eq_some_iff, Option.map_eq_some_iff] at hx hy
  obtain ⟨_, _, _, _, rfl⟩ := hx
  obtain ⟨_, _, _, _, rfl⟩ := hy
  exact hab

/-! ### Arrays -/

/-- The labels of the channels of a component. -/
def Ds.chans (s : Ds) (c : Comp) : List String :=
  match channelDim c with
  | none => []
  | some n => (s.labels n).getD []

theorem array_some {s : Ds} {c : Comp} {a : Arr} {d : DA} {G T M : List String}
    (hG : s.labels "geo" = some G) (hT : s.labels "time" = some T)
    (hM : s.labels "media_time" = some M) (h : s.array c a = some d) :
    Shaped c (timeDim c) a ∧ d.geos = G ∧ (c.kind = .time → d.times = T) ∧
      (c.kind = .mediaTime → d.times = M) ∧ d.channels = s.chans c ∧ d.vals = a.vals := by
  unfold Ds.array at h
  split_ifs at h with hf
  have hs : Shaped c (timeDim c) a := by
    unfold fits at hf
    obtain ⟨h1, h2, h3⟩ := of_decide_eq_true hf
    exact ⟨h1, h2, h3⟩
  rw [hG] at h
  refine ⟨hs, ?_⟩
  unfold Ds.chans
  unfold timeDim at h
  cases hk : c.kind with
  | noTime =>
    rw [hk] at h
    simp only at h
    cases hc : channelDim c with
    | none => rw [hc] at h; simp only [Option.some.injEq] at h; subst h; simp
    | some n =>
      rw [hc] at h
      simp only at h
      cases hl : s.labels n with
      | none => rw [hl] at h; cases h
      | some K => rw [hl] at h; simp only [Option.some.injEq] at h; subst h; simp [hl]
  | time =>
    rw [hk] at h
    simp only [hT] at h
    cases hc : channelDim c with
    | none => rw [hc] at h; simp only [Option.some.injEq] at h; subst h; simp
    | some n =>
      rw [hc] at h
      simp only at h
      cases hl : s.labels n with
      | none => rw [hl] at h; cases h
      | some K => rw [hl] at h; simp only [Option.some.injEq] at h; subst h; simp [hl]
  | mediaTime =>
    rw [hk] at h
    simp only [hM] at h
    cases hc : channelDim c with
    | none => rw [hc] at h; simp only [Option.some.injEq] at h; subst h; simp
    | some n =>
      rw [hc] at h
      simp only at h
      cases hl : s.labels n with
      | none => rw [hl] at h; cases h
      | some K => rw [hl] at h; simp only [Option.some.injEq] at h; subst h; simp [hl]

theorem array_isSome {s : Ds} {c : Comp} {a : Arr} {G T M : List String}
    (hG : s.labels "geo" = some G) (hT : s.labels "time" = some T)
    (hM : s.labels "media_time" = some M) (hc : ∀ n, a.chan = some n → ∃ K, s.labels n = some K) :
    s.array c a ≠ none ↔ Shaped c (timeDim c) a := by
  constructor
  · intro h
    obtain ⟨d, hd⟩ := Option.ne_none_iff_exists'.1 h
    exact (array_some hG hT hM hd).1
  · intro h
    unfold Ds.array
    have hf : fits c (timeDim c) a = true := by
      unfold fits
      exact decide_eq_true ⟨h.geo, h.chan, h.time⟩
    rw [if_neg (not_not.2 hf), hG]
    have ht : ∃ t, (match timeDim c with | none => some [] | some n => s.labels n) = some t := by
      unfold timeDim
      cases c.kind with
      | noTime => exact ⟨_, rfl⟩
      | time => exact ⟨_, hT⟩
      | mediaTime => exact ⟨_, hM⟩
    have hk : ∃ k, (match channelDim c with | none => some [] | some n => s.labels n) = some k := by
      cases hd : channelDim c with
      | none => exact ⟨_, rfl⟩
      | some n => exact hc n (h.chan.trans hd)
    obtain ⟨t, ht⟩ := ht
    obtain ⟨k, hk⟩ := hk
    cases htd : timeDim c with
    | none =>
      cases hcd : channelDim c with
      | none => simp
      | some n => rw [hcd] at hk; simp only at hk; simp [hk]
    | some m =>
      rw [htd] at ht
      simp only at ht
      cases hcd : channelDim c with
      | none => simp [ht]
      | some n => rw [hcd] at hk; simp only at hk; simp [ht, hk]

/-! ### Building from a dataset with media times -/

theorem peers_channelDim {c d : Comp} (h : c ∈ d.peers) : channelDim c = channelDim d := by
  revert h; cases c <;> cases d <;> decide

variable {κ : Type} [LinearOrder κ]

theorem consistent_pairs {env : Env κ} {s : Ds} {G T M : List String}
    (hG : s.labels "geo" = some G) (hT : s.labels "time" = some T)
    (hM : s.labels "media_time" = some M)
    (hkpi : ∃ x ∈ s.pairs loadOrder, x.1 = .kpi)
    (hmedia : ∃ x ∈ s.pairs loadOrder, x.1.kind = .mediaTime) :
    Consistent env (s.pairs loadOrder) ↔ (normGeos G).Nodup ∧ (∀ t ∈ T, env.isDate t = true) ∧
      (∀ t ∈ M, env.isDate t = true) ∧ T.Nodup ∧ M.Nodup ∧ env.regular (sorted T) = true ∧
      env.regular (sorted M) = true ∧ Lagged M T := by
  have hx : ∀ x ∈ s.pairs loadOrder, x.2.geos = G ∧ (x.1.kind = .time → x.2.times = T) ∧
      (x.1.kind = .mediaTime → x.2.times = M) ∧ x.2.channels = s.chans x.1 := by
    rintro ⟨c, d⟩ hx
    obtain ⟨_, a, _, h⟩ := mem_pairs.1 hx
    obtain ⟨_, h1, h2, h3, h4, _⟩ := array_some hG hT hM h
    exact ⟨h1, h2, h3, h4⟩
  have hpw := pairs_pairwise (s := s) loadOrder_nodup
  constructor
  · rintro ⟨hw, hp⟩
    obtain ⟨k, hk, hk'⟩ := hkpi
    obtain ⟨m, hm, hm'⟩ := hmedia
    have kk : k.1.kind = .time := by rw [hk']; rfl
    have ek := (hx k hk).2.1 kk
    have em := (hx m hm).2.2.1 hm'
    have wk := hw k hk
    have wm := hw m hm
    have nk : k.1.kind ≠ .noTime := by rw [kk]; decide
    have nm : m.1.kind ≠ .noTime := by rw [hm']; decide
    have hne : k ≠ m := by rintro rfl; rw [kk] at hm'; cases hm'
    have hcomp : Compatible k m := by
      rcases eq_or_compatible hp hk hm with h | h
      · exact absurd h hne
      · exact h
    refine ⟨?_, ?_, ?_, ?_, ?_, ?_, ?_, ?_⟩
    · have := wk.geos_distinct
      unfold geosOf at this
      rwa [(hx k hk).1] at this
    · have := wk.dates nk; rwa [ek] at this
    · have := wm.dates nm; rwa [em] at this
    · have := wk.times_distinct nk; rwa [ek] at this
    · have := wm.times_distinct nm; rwa [em] at this
    · have := wk.times_regular nk; rwa [ek] at this
    · have := wm.times_regular nm; rwa [em] at this
    · have := hcomp.lagged' kk hm'
      rwa [ek, em] at this
  · rintro ⟨h1, h2, h3, h4, h5, h6, h7, h8⟩
    refine ⟨fun x hxm => ?_, ?_⟩
    · obtain ⟨e1, e2, e3, _⟩ := hx x hxm
      have hcase : x.1.kind ≠ .noTime → x.2.times = T ∨ x.2.times = M := by
        intro hn
        cases hk : x.1.kind with
        | noTime => exact absurd hk hn
        | time => exact Or.inl (e2 hk)
        | mediaTime => exact Or.inr (e3 hk)
      refine ⟨?_, ?_, ?_, ?_⟩
      · unfold geosOf; rw [e1]; exact h1
      · intro hn; rcases hcase hn with e | e <;> rw [e] <;> assumption
      · intro hn; rcases hcase hn with e | e <;> rw [e] <;> assumption
      · intro hn; rcases hcase hn with e | e <;> rw [e] <;> assumption
    · refine List.Pairwise.imp_of_mem ?_ hpw
      intro x y hxm hym hne
      obtain ⟨e1, e2, e3, e4⟩ := hx x hxm
      obtain ⟨f1, f2, f3, f4⟩ := hx y hym
      refine ⟨hne, ?_, ?_, ?_, ?_, ?_⟩
      · intro g; unfold geosOf; rw [e1, f1]
      · intro hk hn t
        cases hkx : x.1.kind with
        | noTime => exact absurd hkx hn
        | time => rw [e2 hkx, f2 (hk ▸ hkx)]
        | mediaTime => rw [e3 hkx, f3 (hk ▸ hkx)]
      · intro hkx hky; rw [e3 hkx, f2 hky]; exact h8
      · intro hkx hky; rw [e2 hkx, f3 hky]; exact h8
      · intro hp
        rw [e4, f4]
        unfold Ds.chans
        rw [peers_channelDim hp]

theorem has_pairs {s : Ds} (hall : ∀ c a, s.var c = some a → s.array c a ≠ none) (c : Comp) :
    (∃ x ∈ s.pairs loadOrder, x.1 = c) ↔ (s.var c).isSome := by
  constructor
  · rintro ⟨⟨c', d⟩, hx, rfl⟩
    obtain ⟨_, a, ha, _⟩ := mem_pairs.1 hx
    simp [ha]
  · intro h
    obtain ⟨a, ha⟩ := Option.isSome_iff_exists.1 h
    obtain ⟨d, hd⟩ := Option.ne_none_iff_exists'.1 (hall c a ha)
    exact ⟨(c, d), mem_pairs.2 ⟨mem_loadOrder c, a, ha, hd⟩, rfl⟩

theorem finish_accepted {env : Env κ} {s : Ds} {G T M : List String}
    (hG : s.labels "geo" = some G) (hT : s.labels "time" = some T)
    (hM : s.labels "media_time" = some M) :
    (∃ b, s.finish env = .ok b) ↔ (∀ c a, s.var c = some a → s.array c a ≠ none) ∧
      Rules env G T M fun c => (s.var c).isSome := by
  by_cases hall : ∀ c a, s.var c = some a → s.array c a ≠ none
  swap
  · simp only [hall, false_and, iff_false]
    have herr : s.components loadOrder = .error .dims := by
      push Not at hall
      obtain ⟨c, a, h1, h2⟩ := hall
      exact components_error ⟨c, mem_loadOrder c, a, h1, h2⟩
    unfold Ds.finish
    rw [herr]
    split_ifs <;> simp
  have hok := components_ok (s := s) (l := loadOrder) fun c _ a h => hall c a h
  have hhas := has_pairs hall
  unfold Ds.finish
  rw [hok]
  by_cases hk : (s.var .kpi).isNone
  · rw [if_pos hk]
    simp only [reduceCtorEq, exists_false, hall, false_iff, not_and]
    intro _ h
    have := h.complete.kpi
    simp only [Option.isNone_iff_eq_none] at hk
    rw [hk] at this
    cases this
  · rw [if_neg hk]
    have hk' : (s.var .kpi).isSome := by
      cases h : s.var .kpi with
      | none => simp [h] at hk
      | some a => rfl
    have e : (∃ b, (match buildFrom env (s.pairs loadOrder) with
        | .error e => Except.error (Err.builder e)
        | .ok b => .ok b) = .ok b) ↔ ∃ b, buildFrom env (s.pairs loadOrder) = .ok b := by
      cases buildFrom env (s.pairs loadOrder) <;> simp
    refine Iff.trans e ?_
    rw [accepted_iff]
    have hcompl : Complete (fun c => ∃ x ∈ s.pairs loadOrder, x.1 = c)
        (∃ x ∈ s.pairs loadOrder, x.2.geos.length = 1) ↔
        Complete (fun c => ((s.var c).isSome : Prop)) (G.length = 1) := by
      have e1 : (fun c => ∃ x ∈ s.pairs loadOrder, x.1 = c) = fun c => ((s.var c).isSome : Prop) := by
        funext c; exact propext (hhas c)
      have e2 : (∃ x ∈ s.pairs loadOrder, x.2.geos.length = 1) ↔ G.length = 1 := by
        constructor
        · rintro ⟨⟨c, d⟩, hx, h⟩
          obtain ⟨_, a, _, ha⟩ := mem_pairs.1 hx
          rwa [(array_some hG hT hM ha).2.1] at h
        · intro h
          obtain ⟨⟨c, d⟩, hx, _⟩ := (hhas .kpi).2 hk'
          obtain ⟨_, a, _, ha⟩ := mem_pairs.1 hx
          exact ⟨(c, d), hx, by rw [(array_some hG hT hM ha).2.1]; exact h⟩
      rw [e1, e2]
    rw [hcompl]
    constructor
    · rintro ⟨h1, h2⟩
      have hm : ∃ x ∈ s.pairs loadOrder, x.1.kind = .mediaTime := by
        rcases h2.paid with h | h
        · obtain ⟨x, hx, e⟩ := (hhas .media).2 h
          exact ⟨x, hx, by rw [e]; rfl⟩
        · obtain ⟨x, hx, e⟩ := (hhas .reach).2 h
          exact ⟨x, hx, by rw [e]; rfl⟩
      obtain ⟨a1, a2, a3, a4, a5, a6, a7, a8⟩ := (consistent_pairs hG hT hM ((hhas .kpi).2 hk') hm).1 h1
      exact ⟨hall, a1, a2, a3, a4, a5, a6, a7, a8, h2⟩
    · rintro ⟨_, a1, a2, a3, a4, a5, a6, a7, a8, h2⟩
      have hm : ∃ x ∈ s.pairs loadOrder, x.1.kind = .mediaTime := by
        rcases h2.paid with h | h
        · obtain ⟨x, hx, e⟩ := (hhas .media).2 h
          exact ⟨x, hx, by rw [e]; rfl⟩
        · obtain ⟨x, hx, e⟩ := (hhas .reach).2 h
          exact ⟨x, hx, by rw [e]; rfl⟩
      exact ⟨(consistent_pairs hG hT hM ((hhas .kpi).2 hk') hm).2 ⟨a1, a2, a3, a4, a5, a6, a7, a8⟩, h2⟩

theorem finish_values {env : Env κ} {s : Ds} {G T M : List String}
    (hG : s.labels "geo" = some G) (hT : s.labels "time" = some T)
    (hM : s.labels "media_time" = some M) {b : Comp → Option DA} (h : s.finish env = .ok b) :
    (∀ c a, s.var c = some a → (c = .population → G.length ≠ 1) → ∃ d, b c = some d ∧
      (∀ g, g ∈ d.geos ↔ g ∈ normGeos G) ∧ d.channels = s.chans c ∧
      (c.kind = .time → ∀ t, t ∈ d.times ↔ t ∈ T) ∧
      (c.kind = .mediaTime → ∀ t, t ∈ d.times ↔ t ∈ M) ∧
      ∀ (i i' j j' k : ℕ) (g t : String), d.geos[i]? = some g → (normGeos G)[i']? = some g →
        (c.kind = .noTime → j = j') →
        (c.kind = .time → d.times[j]? = some t ∧ T[j']? = some t) →
        (c.kind = .mediaTime → d.times[j]? = some t ∧ M[j']? = some t) →
        d.vals i j k = a.vals i' j' k) ∧
    (∀ c d, b c = some d → (s.var c).isSome ∨ c = .population ∧ G.length = 1) ∧
    (G.length = 1 → ∃ d, b .population = some d ∧ d.geos = [nationalGeo] ∧
      ∀ j k, d.vals 0 j k = some 1) := by
  obtain ⟨hall, hr⟩ := (finish_accepted hG hT hM).1 ⟨b, h⟩
  have hok := components_ok (s := s) (l := loadOrder) fun c _ a h => hall c a h
  have hhas := has_pairs hall
  have hk' : (s.var .kpi).isSome := hr.complete.kpi
  unfold Ds.finish at h
  rw [hok] at h
  rw [if_neg (by simp [Option.isNone_iff_eq_none, Option.isSome_iff_ne_none.1 hk'])] at h
  simp only at h
  cases hb : buildFrom env (s.pairs loadOrder) with
  | error e => rw [hb] at h; cases h
  | ok b' =>
    rw [hb] at h
    injection h with h
    subst h
    obtain ⟨v1, v2, v3⟩ := values_kept env hb
    have hnat : (∃ x ∈ s.pairs loadOrder, x.2.geos.length = 1) ↔ G.length = 1 := by
      constructor
      · rintro ⟨⟨c, d⟩, hx, h⟩
        obtain ⟨_, a, _, ha⟩ := mem_pairs.1 hx
        rwa [(array_some hG hT hM ha).2.1] at h
      · intro h
        obtain ⟨⟨c, d⟩, hx, _⟩ := (hhas .kpi).2 hk'
        obtain ⟨_, a, _, ha⟩ := mem_pairs.1 hx
        exact ⟨(c, d), hx, by rw [(array_some hG hT hM ha).2.1]; exact h⟩
    refine ⟨?_, ?_, fun hn => v3 (hnat.2 hn)⟩
    · intro c a ha hpop
      obtain ⟨e, he⟩ := Option.ne_none_iff_exists'.1 (hall c a ha)
      have hmem : (c, e) ∈ s.pairs loadOrder := mem_pairs.2 ⟨mem_loadOrder c, a, ha, he⟩
      obtain ⟨_, e1, e2, e3, e4, e5⟩ := array_some hG hT hM he
      obtain ⟨d, hd, sv⟩ := v1 (c, e) hmem (by simpa [e1] using hpop)
      simp only at hd sv
      refine ⟨d, hd, ?_, ?_, ?_, ?_, ?_⟩
      · intro g; have := sv.geos g; rwa [e1] at this
      · rw [sv.channels, e4]
      · intro hk t
        have := sv.times (by rw [hk]; rfl) t
        rwa [e2 hk] at this
      · intro hk t
        have := sv.times (by rw [hk]; rfl) t
        rwa [e3 hk] at this
      · intro i i' j j' k g t hg hg' h0 h1 h2
        rw [← e5]
        refine sv.value i i' j j' k g t hg (by rw [e1]; exact hg') ?_
        cases hk : c.kind with
        | noTime => simpa using h0 hk
        | time => simpa [e2 hk] using h1 hk
        | mediaTime => simpa [e3 hk] using h2 hk
    · intro c d hd
      rcases v2 c d hd with h | ⟨h, h'⟩
      · exact Or.inl ((hhas c).1 h)
      · exact Or.inr ⟨h, hnat.1 h'⟩

/-! ### The split -/

theorem find_congr' {α : Type} {p q : α → Bool} : ∀ {l : List α}, (∀ x ∈ l, p x = q x) →
    l.find? p = l.find? q := by
  intro l
  induction l with
  | nil => intro _; rfl
  | cons x l ih =>
    intro h
    simp only [List.find?_cons, h x List.mem_cons_self, ih fun y hy => h y (List.mem_cons_of_mem _ hy)]

theorem var_some {s : Ds} {c : Comp} {a : Arr} (h : s.var c = some a) : (nameOf c, a) ∈ s.vars := by
  unfold Ds.var at h
  obtain ⟨v, hv, rfl⟩ := Option.map_eq_some_iff.1 h
  have h1 := List.find?_some hv
  have h2 : v.1 = nameOf c := of_decide_eq_true h1
  have := List.mem_of_find?_eq_some hv
  rw [← h2]
  exact this

theorem labels_of_mem {s : Ds} {n : String} (h : n ∈ s.dims.map (·.1)) : ∃ K, s.labels n = some K := by
  unfold Ds.labels
  cases hf : s.dims.find? (·.1 = n) with
  | some d => exact ⟨d.2, rfl⟩
  | none =>
    obtain ⟨d, hd, e⟩ := List.mem_map.1 h
    have := List.find?_eq_none.1 hf d hd
    simp [e] at this

theorem mem_of_labels {s : Ds} {n : String} {K : List String} (h : s.labels n = some K) :
    n ∈ s.dims.map (·.1) := by
  unfold Ds.labels at h
  obtain ⟨d, hd, _⟩ := Option.map_eq_some_iff.1 h
  have h1 := List.find?_some hd
  have h2 : d.1 = n := of_decide_eq_true h1
  exact List.mem_map.2 ⟨d, List.mem_of_find?_eq_some hd, h2⟩

theorem lag_find (c : Comp) (n : String) (h : n = nameOf c) :
    (lagComps.find? fun d => n = nameOf d) = if c.kind = .time then some c else none := by
  subst h
  cases c <;> decide

/-- What the split does to an array. -/
def Ds.moved (s : Ds) (times period : List String) (c : Comp) (a : Arr) : Arr :=
  if c.kind = .time then s.shorten times period c a
  else { a with time := if a.time = some "time" then some "media_time" else a.time }

theorem split_var (s : Ds) (times period : List String) (dims : List (String × List String))
    (c : Comp) : Ds.var ⟨dims, s.vars.map (s.splitVar times period)⟩ c =
      (s.var c).map (s.moved times period c) := by
  unfold Ds.var
  simp only [List.find?_map, Option.map_map]
  have e : ((fun x : String × Arr => decide (x.1 = nameOf c)) ∘ s.splitVar times period) =
      fun x => decide (x.1 = nameOf c) := by
    funext v
    simp only [Function.comp]
    unfold Ds.splitVar
    split <;> rfl
  rw [e]
  cases hf : s.vars.find? (fun x => decide (x.1 = nameOf c)) with
  | none => rfl
  | some v =>
    have h1 := List.find?_some hf
    have h2 : v.1 = nameOf c := of_decide_eq_true h1
    simp only [Option.map_some, Function.comp, Option.some.injEq]
    unfold Ds.splitVar Ds.moved
    rw [lag_find c v.1 h2]
    split_ifs <;> rfl

theorem split_labels {s : Ds} (period : List String) (vars : List (String × Arr)) {n : String}
    (h1 : n ≠ "time") (h2 : n ≠ "media_time") :
    Ds.labels ⟨(s.dims.map fun d => (if d.1 = "time" then "media_time" else d.1, d.2)) ++
      [("time", period)], vars⟩ n = s.labels n := by
  unfold Ds.labels
  simp only [List.find?_append, List.find?_map]
  have e : ((fun x : String × List String => decide (x.1 = n)) ∘
      fun d : String × List String => ((if d.1 = "time" then "media_time" else d.1 : String), d.2)) =
      fun x : String × List String => decide (x.1 = n) := by
    funext d
    simp only [Function.comp, decide_eq_decide]
    split_ifs with h
    · constructor
      · intro e; exact absurd e.symm h2
      · intro e; exact absurd (e.symm.trans h) h1
    · rfl
  rw [e]
  have : ([("time", period)] : List (String × List String)).find? (fun x => decide (x.1 = n)) = none := by
    simp [Ne.symm h1]
  rw [this]
  cases hf : s.dims.find? (fun x => decide (x.1 = n)) with
  | none => rfl
  | some d =>
    have h3 := List.find?_some hf
    have h4 : d.1 = n := of_decide_eq_true h3
    simp

theorem split_labels_time {s : Ds} (period : List String) (vars : List (String × Arr)) :
    Ds.labels ⟨(s.dims.map fun d => (if d.1 = "time" then "media_time" else d.1, d.2)) ++
      [("time", period)], vars⟩ "time" = some period := by
  unfold Ds.labels
  simp only [List.find?_append, List.find?_map]
  have : (s.dims.find? ((fun x : String × List String => decide (x.1 = "time")) ∘
      fun d => ((if d.1 = "time" then "media_time" else d.1 : String), d.2))) = none := by
    rw [List.find?_eq_none]
    intro d _
    simp only [Function.comp, decide_eq_true_eq]
    split_ifs with h
    · decide
    · exact h
  rw [this]
  simp

theorem split_labels_media {s : Ds} (period : List String) (vars : List (String × Arr))
    (hm : s.labels "media_time" = none) {T : List String} (hT : s.labels "time" = some T) :
    Ds.labels ⟨(s.dims.map fun d => (if d.1 = "time" then "media_time" else d.1, d.2)) ++
      [("time", period)], vars⟩ "media_time" = some T := by
  unfold Ds.labels at hm hT ⊢
  simp only [List.find?_append, List.find?_map]
  have hm' : ∀ d ∈ s.dims, d.1 ≠ "media_time" := by
    intro d hd e
    have := List.find?_eq_none.1 (Option.map_eq_none_iff.1 hm) d hd
    simp [e] at this
  have e : s.dims.find? ((fun x : String × List String => decide (x.1 = "media_time")) ∘
      fun d => ((if d.1 = "time" then "media_time" else d.1 : String), d.2)) =
      s.dims.find? (fun x => decide (x.1 = "time")) := by
    refine find_congr' ?_
    intro d hd
    simp only [Function.comp, decide_eq_decide]
    split_ifs with h
    · simp [h]
    · simp [h, hm' d hd]
  rw [e]
  obtain ⟨d, hd, rfl⟩ := Option.map_eq_some_iff.1 hT
  rw [hd]
  simp

theorem anyNull_iff {s : Ds} {c : Comp} {a : Arr} {j : ℕ} {G : List String}
    (hG : s.labels "geo" = some G) :
    s.anyNull c a j = true ↔ ∃ i, i < G.length ∧ ∃ k, k < s.width c ∧ a.vals i j k = none := by
  unfold Ds.anyNull
  simp [hG]

theorem naMask_iff {s : Ds} {T : List String} {G : List String} (hG : s.labels "geo" = some G)
    (hT : s.labels "time" = some T) (hn : T.Nodup) {j : ℕ} {t : String} (hj : T[j]? = some t) :
    s.naMask j = true ↔ Incomplete s t := by
  unfold Ds.naMask
  rw [List.any_eq_true]
  constructor
  · rintro ⟨c, hc, h⟩
    cases hv : s.var c with
    | none => rw [hv] at h; cases h
    | some a =>
      rw [hv] at h
      obtain ⟨i, hi, k, hk, e⟩ := (anyNull_iff hG).1 h
      exact ⟨c, G[i], k, (mem_lagComps c).1 hc, hk, a, i, j, G, T, hv, hG,
        List.getElem?_eq_getElem hi, hT, hj, e.symm⟩
  · rintro ⟨c, g, k, hc, hk, a, i, j', G', T', hv, hG', hi, hT', hj', e⟩
    rw [hG] at hG'; cases hG'
    rw [hT] at hT'; cases hT'
    refine ⟨c, (mem_lagComps c).2 hc, ?_⟩
    rw [hv]
    obtain ⟨l1, e1⟩ := List.getElem?_eq_some_iff.1 hj
    obtain ⟨l2, e2⟩ := List.getElem?_eq_some_iff.1 hj'
    have : j' = j := (hn.getElem_inj_iff).1 (e2.trans e1.symm)
    subst this
    exact (anyNull_iff hG).2 ⟨i, (List.getElem?_eq_some_iff.1 hi).1, k, hk, e.symm⟩

/-- The labels of the times that are kept. -/
def Ds.period (s : Ds) (T : List String) : List String :=
  (positions T.length s.naMask).map fun j => T.getD j ""

theorem map_range_getD (T : List String) : ((List.range T.length).map fun j => T.getD j "") = T := by
  apply List.ext_getElem
  · simp
  · intro i h1 h2
    simp [List.getD_eq_getElem?_getD, List.getElem?_eq_getElem h2]

theorem period_sublist (s : Ds) (T : List String) : (s.period T).Sublist T := by
  have h : (s.period T).Sublist ((List.range T.length).map fun j => T.getD j "") := by
    unfold Ds.period positions
    exact List.filter_sublist.map _
  rwa [map_range_getD] at h

theorem mem_period {s : Ds} {T G : List String} (hG : s.labels "geo" = some G)
    (hT : s.labels "time" = some T) (hn : T.Nodup) (t : String) :
    t ∈ s.period T ↔ t ∈ T ∧ ¬ Incomplete s t := by
  unfold Ds.period positions
  simp only [List.mem_map, List.mem_filter, List.mem_range, Bool.not_eq_true']
  constructor
  · rintro ⟨j, ⟨hj, hm⟩, rfl⟩
    have e : T[j]? = some (T.getD j "") := by
      rw [List.getD_eq_getElem?_getD, List.getElem?_eq_getElem hj]; rfl
    refine ⟨List.mem_of_getElem? e, fun h => ?_⟩
    rw [(naMask_iff hG hT hn e).2 h] at hm
    cases hm
  · rintro ⟨ht, hi⟩
    obtain ⟨j, hj, e⟩ := List.getElem_of_mem ht
    have e' : T[j]? = some t := by rw [List.getElem?_eq_getElem hj, e]
    refine ⟨j, ⟨hj, ?_⟩, ?_⟩
    · rw [← Bool.not_eq_true]
      exact fun h => hi ((naMask_iff hG hT hn e').1 h)
    · rw [List.getD_eq_getElem?_getD, e']; rfl

theorem shorten_vals {s : Ds} {T G : List String} (hG : s.labels "geo" = some G)
    (hT : s.labels "time" = some T) (hn : T.Nodup) {c : Comp} (hc : c.kind = .time) {a : Arr}
    (hv : s.var c = some a) {i j j' k : ℕ} {t : String} (h1 : (s.period T)[j]? = some t)
    (h2 : T[j']? = some t) :
    (s.shorten T (s.period T) c a).vals i j k = a.vals i j' k := by
  have hlt : j' < T.length := (List.getElem?_eq_some_iff.1 h2).1
  have hinc : ¬ Incomplete s t := ((mem_period hG hT hn t).1 (List.mem_of_getElem? h1)).2
  have hown : j' ∈ positions T.length (s.anyNull c a) := by
    unfold positions
    simp only [List.mem_filter, List.mem_range, Bool.not_eq_true']
    refine ⟨hlt, ?_⟩
    rw [← Bool.not_eq_true]
    intro h
    refine hinc ((naMask_iff hG hT hn h2).1 ?_)
    unfold Ds.naMask
    rw [List.any_eq_true]
    refine ⟨c, (mem_lagComps c).2 hc, ?_⟩
    rw [hv]
    exact h
  obtain ⟨p, hp, e⟩ := List.getElem_of_mem hown
  have hnd : ((positions T.length (s.anyNull c a)).map fun q => T.getD q "").Nodup := by
    have h : ((positions T.length (s.anyNull c a)).map fun q => T.getD q "").Sublist
        ((List.range T.length).map fun j => T.getD j "") := by
      unfold positions
      exact List.filter_sublist.map _
    rw [map_range_getD] at h
    exact h.nodup hn
  have hlook : ((positions T.length (s.anyNull c a)).map fun q => T.getD q "")[p]? = some t := by
    rw [List.getElem?_map, List.getElem?_eq_getElem hp, e]
    simp [List.getD_eq_getElem?_getD, h2]
  unfold Ds.shorten
  simp only [h1]
  rw [idx_lookup hnd hlook]
  simp only
  rw [List.getD_eq_getElem?_getD, List.getElem?_eq_getElem hp, e]
  rfl

theorem sublist_unique {T : List String} (hn : T.Nodup) : ∀ {P Q : List String}, P.Sublist T →
    Q.Sublist T → P.Perm Q → P = Q := by
  induction T with
  | nil =>
    intro P Q hP hQ _
    rw [List.sublist_nil.1 hP, List.sublist_nil.1 hQ]
  | cons x T ih =>
    intro P Q hP hQ hp
    obtain ⟨hx, hn'⟩ := List.nodup_cons.1 hn
    by_cases hxP : x ∈ P
    · have hxQ := hp.mem_iff.1 hxP
      cases hP with
      | cons _ hP' => exact absurd (hP'.subset hxP) hx
      | cons_cons _ hP' =>
        cases hQ with
        | cons _ hQ' => exact absurd (hQ'.subset hxQ) hx
        | cons_cons _ hQ' => rw [ih hn' hP' hQ' ((List.perm_cons x).1 hp)]
    · have hxQ : x ∉ Q := fun h => hxP (hp.mem_iff.2 h)
      cases hP with
      | cons_cons _ hP' => exact absurd List.mem_cons_self hxP
      | cons _ hP' =>
        cases hQ with
        | cons_cons _ hQ' => exact absurd List.mem_cons_self hxQ
        | cons _ hQ' => exact ih hn' hP' hQ' hp

end Verif.XrLoad
